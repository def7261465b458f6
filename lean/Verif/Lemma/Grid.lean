import Verif.Model.Grid
import Verif.Lemma.Threads
import Verif.Lemma.MixedRadix
import Mathlib.Data.List.GetD
import Mathlib.Algebra.Order.Field.Basic
import Mathlib.Tactic.FieldSimp

namespace Splinepy

/-- Nested loops as one loop with div and mod. -/
theorem range_flatMap_range {α : Type*} (n m : ℕ) (g : ℕ → ℕ → α) :
    (List.range n).flatMap (fun a => (List.range m).map (g a)) =
      (List.range (n * m)).map (fun k => g (k / m) (k % m)) := by
  induction n with
  | zero => simp
  | succ n ih =>
    rw [List.range_succ, List.flatMap_append, ih, Nat.succ_mul, List.range_add, List.map_append]
    congr 1
    simp only [List.flatMap_cons, List.flatMap_nil, List.append_nil, List.map_map]
    apply List.map_congr_left
    intro k hk
    rw [List.mem_range] at hk
    have hm : 0 < m := by omega
    simp only [Function.comp]
    rw [Nat.mul_comm n m, Nat.mul_add_div hm, Nat.mul_add_mod, Nat.div_eq_of_lt hk, Nat.mod_eq_of_lt hk]
    simp

namespace Grid
open Splinepy.Spec Splinepy.Threads

theorem fillColumn_eq {K : Type*} (tile rep : ℕ) (n : ℕ) (f : ℕ → K) :
    fillColumn tile rep ((List.range n).map f) =
      (List.range (tile * (n * rep))).map (fun k => f (k % (n * rep) / rep)) := by
  unfold fillColumn
  rw [List.flatMap_map, range_flatMap_range n rep (fun a _ => f a), range_flatMap_range]

theorem mod_mul_div (k n r : ℕ) : k % (n * r) / r = k / r % n := by
  rw [Nat.mul_comm, Nat.mod_mul_right_div_self]

/-- values written by `fill` in dimension `d` -/
theorem fillGo_spec {K : Type*} (dim : ℕ) (fs : List (ℕ × (ℕ → K))) (i tile rep : ℕ)
    (hpos : ∀ p ∈ fs, 0 < p.1) (hi : i + fs.length = dim) (htile : tile = (fs.map (·.1)).prod) :
    let ws := fillGo dim (fs.map (fun p => (List.range p.1).map p.2)) i tile rep
    (ws.map Prod.fst).Nodup ∧ (∀ w ∈ ws, i ≤ w.1 % dim) ∧
    ∀ row < tile * rep, ∀ d (hd : d < fs.length),
      (row * dim + (i + d), fs[d].2 (row / (rep * ((fs.map (·.1)).take d).prod) % fs[d].1)) ∈ ws := by
  induction fs generalizing i tile rep with
  | nil => simp [fillGo]
  | cons p fs ih =>
    obtain ⟨n, f⟩ := p
    have hn : 0 < n := hpos (n, f) (by simp)
    have hdim : 0 < dim := by simp at hi; omega
    have hid : i < dim := by simp at hi; omega
    simp only [List.map_cons, List.prod_cons] at htile
    have htile' : tile / n = (fs.map (·.1)).prod := by
      rw [htile]; exact Nat.mul_div_cancel_left _ hn
    obtain ⟨h1, h2, h3⟩ := ih (i + 1) (tile / n) (rep * n) (fun p hp => hpos p (by simp [hp]))
      (by simp at hi; omega) htile'
    simp only [List.map_cons, fillGo, List.length_map, List.length_range]
    have hcol : (fillColumn (tile / n) rep ((List.range n).map f)).zipIdx.map
        (fun vk => (i + vk.2 * dim, vk.1)) =
        (List.range (tile * rep)).map (fun k => (i + k * dim, f (k / rep % n))) := by
      rw [fillColumn_eq]
      have hL : tile / n * (n * rep) = tile * rep := by
        rw [htile', htile]; ring
      rw [hL]
      apply List.ext_getElem
      · simp
      · intro k h1 h2
        simp [mod_mul_div]
    rw [hcol]
    refine ⟨?_, ?_, ?_⟩
    · rw [List.map_append, List.nodup_append]
      refine ⟨?_, h1, ?_⟩
      · rw [List.map_map]
        apply List.Nodup.map _ List.nodup_range
        intro a b hab
        simp only [Function.comp] at hab
        exact Nat.eq_of_mul_eq_mul_right hdim (by omega)
      · intro a ha b hb hab
        subst hab
        simp only [List.map_map, List.mem_map, Function.comp] at ha
        obtain ⟨k, _, rfl⟩ := ha
        obtain ⟨w, hw, hw2⟩ := List.mem_map.1 hb
        have := h2 w hw
        rw [hw2, Nat.add_mul_mod_self_right, Nat.mod_eq_of_lt hid] at this
        omega
    · intro w hw
      rw [List.mem_append] at hw
      rcases hw with hw | hw
      · obtain ⟨k, _, rfl⟩ := List.mem_map.1 hw
        simp only [Nat.add_mul_mod_self_right, Nat.mod_eq_of_lt hid, le_refl]
      · have := h2 w hw; omega
    · intro row hrow d hd
      rw [List.mem_append]
      cases d with
      | zero =>
        left
        refine List.mem_map.2 ⟨row, List.mem_range.2 hrow, ?_⟩
        simp [Nat.add_comm]
      | succ d =>
        right
        have := h3 row (by
          rw [htile'];
          calc row < tile * rep := hrow
            _ = _ := by rw [htile]; ring) d (by simpa using hd)
        simp only [List.getElem_cons_succ, List.take_succ_cons, List.prod_cons]
        rw [← Nat.mul_assoc rep, show i + (d + 1) = i + 1 + d by omega]
        exact this

theorem mapM_none_of_mem {α β : Type*} (f : α → Option β) (l : List α) (a : α) (h : a ∈ l) (hf : f a = none) :
    l.mapM f = none := by
  induction l with
  | nil => simp at h
  | cons b l ih =>
    rw [List.mapM_cons]
    rcases List.mem_cons.1 h with h | h
    · subst h; rw [hf]; rfl
    · rw [ih h]; cases f b <;> rfl

theorem foldl_mul_eq {α : Type*} (l : List α) (f : α → ℕ) (a : ℕ) :
    l.foldl (fun x d => x * f d) a = a * (l.map f).prod := by
  induction l generalizing a with
  | nil => simp
  | cons b l ih => rw [List.foldl_cons, ih, List.map_cons, List.prod_cons, Nat.mul_assoc]

theorem mapM_eq_some_map' {α β : Type*} (f : α → Option β) (g : α → β) (l : List α)
    (h : ∀ a ∈ l, f a = some (g a)) : l.mapM f = some (l.map g) := by
  induction l with
  | nil => rfl
  | cons a l ih =>
    simp [List.mapM_cons, h a (by simp), ih (fun x hx => h x (by simp [hx]))]

/-- the equidistant coordinates of dimension `i` -/
def linspace {K : Type*} [Field K] (dim : ℕ) (bounds : ℕ → K) (res : ℕ → ℤ) (i j : ℕ) : K :=
  bounds i + (bounds (i + dim) - bounds i) / (((res i).toNat - 1 : ℕ) : K) * (j : K)

theorem setUp_eq {K : Type*} [Field K] (dim : ℕ) (bounds : ℕ → K) (res : ℕ → ℤ)
    (h : ∀ i < dim, 2 ≤ res i) :
    setUp dim bounds res = some
      { entries := (List.range dim).map (fun i => (List.range (res i).toNat).map (linspace dim bounds res i))
        resolutions := (List.range dim).map (fun i => (res i).toNat)
        stepSize := (List.range dim).map
          (fun i => (bounds (i + dim) - bounds i) / (((res i).toNat - 1 : ℕ) : K))
        len := ((List.range dim).map (fun i => (res i).toNat)).prod } := by
  unfold setUp
  rw [mapM_eq_some_map' _ (fun i => ((List.range (res i).toNat).map (linspace dim bounds res i), (res i).toNat,
    (bounds (i + dim) - bounds i) / (((res i).toNat - 1 : ℕ) : K)))]
  · simp only [Option.some.injEq, GridPoints.mk.injEq, List.map_map, Function.comp_def, true_and]
    rw [foldl_mul_eq]
    simp [Function.comp_def]
  · intro i hi
    have := h i (List.mem_range.1 hi)
    unfold setUpDim
    simp only [if_neg (show ¬ (res i < 2) by omega)]
    rfl

theorem idToGridPointGo_eq {K : Type*} (fs : List (ℕ × (ℕ → K))) (id : ℕ) (hpos : ∀ p ∈ fs, 0 < p.1) :
    idToGridPointGo (fs.map (fun p => (List.range p.1).map p.2)) (fs.map (·.1)) id =
      some (List.zipWith (fun p k => p.2 k) fs (digits (fs.map (·.1)) id)) := by
  induction fs generalizing id with
  | nil => rfl
  | cons p fs ih =>
    simp only [List.map_cons, idToGridPointGo, digits]
    rw [ih _ (fun q hq => hpos q (by simp [hq]))]
    have : id % p.1 < p.1 := Nat.mod_lt _ (hpos p (by simp))
    simp [this]

end Grid
end Splinepy
