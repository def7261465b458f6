import Verif.Model.Gismo
import Verif.Props.Multipatch
import Mathlib.Data.List.GetD
import Mathlib.Tactic.Ring
import Mathlib.Tactic.Linarith
import Mathlib.Tactic.IntervalCases
import Mathlib.Data.List.Sort
import Mathlib.Data.List.Dedup
import Mathlib.Data.List.Nodup

/-!
C47: the topology survives the way through a gismo file. C48: numbering of the fields on a patch.
-/
namespace Splinepy.Gismo

/-! ### specification -/

/-- A table of interfaces of `n` patches with `f` faces each: every face that is not a boundary has a partner, another face whose partner it is. -/
structure Spec.Table (n f : ℕ) (t : List Int) : Prop where
  size : t.length = n * f
  partner : ∀ p < n * f, 0 ≤ t.getD p 0 → ∃ q < n * f, t.getD p 0 = (q : Int) ∧ q ≠ p ∧ t.getD q 0 = (p : Int)

/-! ### assignment of consistent entries -/

theorem pyIndex_nat {n i : ℕ} (h : i < n) : Index.pyIndex n (i : Int) = some i := by
  unfold Index.pyIndex
  simp [h]

/-- Writing entries that agree with `g` gives `g` at the written positions. -/
theorem assignAll_consistent (n f : ℕ) (g : ℕ → Int) : ∀ (es : List (ℕ × ℕ)) (t : List Int), t.length = n * f →
    (∀ e ∈ es, e.1 < n ∧ e.2 < f) →
    ∃ t', assignAll n f (es.map fun e => ((e.1 : Int), (e.2 : Int), g (e.1 * f + e.2))) t = some t' ∧ t'.length = n * f ∧
      ∀ p < n * f, t'.getD p 0 = if p ∈ es.map (fun e => e.1 * f + e.2) then g p else t.getD p 0
  | [], t, ht, _ => ⟨t, rfl, ht, by simp⟩
  | e :: es, t, ht, h => by
    have he := h e (by simp)
    have hlt : e.1 * f + e.2 < n * f := by
      calc e.1 * f + e.2 < e.1 * f + f := by omega
        _ = (e.1 + 1) * f := by ring
        _ ≤ n * f := Nat.mul_le_mul_right f he.1
    obtain ⟨t', h1, h2, h3⟩ := assignAll_consistent n f g es (t.set (e.1 * f + e.2) (g (e.1 * f + e.2))) (by simpa using ht)
      (fun e' he' => h e' (by simp [he']))
    refine ⟨t', ?_, h2, ?_⟩
    · simp only [List.map_cons, assignAll, pyIndex_nat he.1, pyIndex_nat he.2]
      exact h1
    · intro p hp
      rw [h3 p hp]
      simp only [List.map_cons, List.mem_cons]
      by_cases hm : p ∈ es.map (fun e => e.1 * f + e.2)
      · simp [hm]
      · simp only [hm, or_false, if_false]
        by_cases hpe : p = e.1 * f + e.2
        · subst hpe
          simp [List.getD_eq_getElem?_getD, List.getElem?_set, ht, hlt]
        · have : e.1 * f + e.2 ≠ p := fun h => hpe h.symm
          simp [List.getD_eq_getElem?_getD, List.getElem?_set, hpe, this]

theorem reshapeRows_flatten {k : ℕ} (hk : 0 < k) : ∀ (rows : List (List Int)) (fuel : ℕ), (∀ r ∈ rows, r.length = k) →
    rows.flatten.length ≤ fuel → reshapeRows k fuel rows.flatten = some rows
  | [], fuel, _, _ => by cases fuel <;> simp [reshapeRows]
  | r :: rows, fuel, h, hf => by
    have hr : r.length = k := h r (by simp)
    have hne : (r :: rows).flatten ≠ [] := by
      intro h0
      have h1 := (List.flatten_eq_nil_iff.1 h0) r (by simp)
      rw [h1] at hr
      simp at hr
      omega
    cases fuel with
    | zero =>
      simp at hf
      have := hf.1
      simp [this] at hr
      omega
    | succ fuel =>
      have hlen : (r :: rows).flatten.length = k + rows.flatten.length := by simp [hr]
      rw [reshapeRows, if_neg hne, if_neg (by omega)]
      have h1 : (r :: rows).flatten.drop k = rows.flatten := by
        rw [List.flatten_cons, ← hr, List.drop_left]
      have h2 : (r :: rows).flatten.take k = r := by
        rw [List.flatten_cons, ← hr, List.take_left]
      rw [h1, h2, reshapeRows_flatten hk rows fuel (fun r' hr' => h r' (by simp [hr'])) (by omega)]
      rfl

/-- The boundary elements, each of which holds faces whose entry is minus its number. -/
theorem assignBoundaries_consistent (n f : ℕ) (off : Int) (g : ℕ → Int) : ∀ (Fs : List (List (ℕ × ℕ))) (id : Int) (t : List Int), t.length = n * f →
    (∀ F ∈ Fs, ∀ e ∈ F, e.1 < n ∧ e.2 < f) →
    (∀ (k : ℕ) F, Fs[k]? = some F → ∀ e ∈ F, g (e.1 * f + e.2) = -(id + k)) →
    ∃ t', assignBoundaries n f off id (Fs.map fun F => (F.map fun pf => [(pf.1 : Int) + off, (pf.2 : Int) + 1]).flatten) t = some t' ∧ t'.length = n * f ∧
      ∀ p < n * f, t'.getD p 0 = if p ∈ Fs.flatten.map (fun e => e.1 * f + e.2) then g p else t.getD p 0
  | [], id, t, ht, _, _ => ⟨t, rfl, ht, by simp⟩
  | F :: Fs, id, t, ht, hv, hg => by
    have hgs : ∀ (k : ℕ) F, Fs[k]? = some F → ∀ e ∈ F, g (e.1 * f + e.2) = -(id + 1 + k) := by
      intro k F' hF' e he
      have := hg (k + 1) F' (by simpa using hF') e he
      rw [this]; push_cast; ring
    have hvs : ∀ F ∈ Fs, ∀ e ∈ F, e.1 < n ∧ e.2 < f := fun F' hF' => hv F' (by simp [hF'])
    by_cases hF : F = []
    · subst hF
      obtain ⟨t', h1, h2, h3⟩ := assignBoundaries_consistent n f off g Fs (id + 1) t ht hvs hgs
      exact ⟨t', by simpa [assignBoundaries] using h1, h2, by simpa using h3⟩
    · obtain ⟨t1, a1, a2, a3⟩ := assignAll_consistent n f g F t ht (hv F (by simp))
      obtain ⟨t', h1, h2, h3⟩ := assignBoundaries_consistent n f off g Fs (id + 1) t1 a2 hvs hgs
      refine ⟨t', ?_, h2, ?_⟩
      · have hne : (F.map fun pf => [(pf.1 : Int) + off, (pf.2 : Int) + 1]).flatten ≠ [] := by
          cases F with
          | nil => exact absurd rfl hF
          | cons a l => simp
        have hl2 : ∀ r ∈ F.map (fun pf => [(pf.1 : Int) + off, (pf.2 : Int) + 1]), r.length = 2 := by
          intro r hr
          obtain ⟨e, _, rfl⟩ := List.mem_map.1 hr
          rfl
        rw [List.map_cons, assignBoundaries, if_neg hne, reshapeRows_flatten (by norm_num) _ _ hl2 le_rfl]
        have hmap : ((F.map fun pf => [(pf.1 : Int) + off, (pf.2 : Int) + 1]).map fun r => (r.getD 0 0 - off, r.getD 1 0 - 1, -id))
            = F.map fun e => ((e.1 : Int), (e.2 : Int), g (e.1 * f + e.2)) := by
          rw [List.map_map]
          apply List.map_congr_left
          intro e he
          have := hg 0 F (by simp) e he
          simp [this]
        simp only [Option.bind_some]
        rw [hmap, a1]
        exact h1
      · intro p hp
        rw [h3 p hp, a3 p hp]
        simp only [List.flatten_cons, List.map_append, List.mem_append]
        by_cases hm : p ∈ Fs.flatten.map (fun e => e.1 * f + e.2)
        · rw [if_pos hm, if_pos (Or.inr hm)]
        · simp only [hm, or_false, if_false]

/-! ### C47 -/

theorem divmod_bounds {n f p : ℕ} (h : p < n * f) : p / f < n ∧ p % f < f ∧ p / f * f + p % f = p := by
  have hf : 0 < f := by
    rcases Nat.eq_zero_or_pos f with h0 | h0
    · subst h0; simp at h
    · exact h0
  exact ⟨Nat.div_lt_of_lt_mul (by rwa [Nat.mul_comm]), Nat.mod_lt _ hf, Nat.div_add_mod' p f⟩

/-- The interface part: every interface is restored, the other entries are not touched. -/
theorem interfaces_restored (parDim n : ℕ) (orient : ℕ → List Int) (ho : ∀ i, (orient i).length = 2 * parDim) (t t0 : List Int)
    (h : Spec.Table n (2 * parDim) t) (h0 : t0.length = n * (2 * parDim)) (off : Int) :
    ∃ t1 t2, reshapeRows (2 * parDim + 4) (((orientationRows (2 * parDim) orient t).map (addOffset off)).flatten).length
          (((orientationRows (2 * parDim) orient t).map (addOffset off)).flatten) = some ((orientationRows (2 * parDim) orient t).map (addOffset off)) ∧
      assignAll n (2 * parDim) (((orientationRows (2 * parDim) orient t).map (addOffset off)).map fun r =>
          (r.getD 0 0 - off, r.getD 1 0 - 1, (r.getD 2 0 - off) * ((2 * parDim : ℕ) : Int) + r.getD 3 0 - 1)) t0 = some t1 ∧
      assignAll n (2 * parDim) (((orientationRows (2 * parDim) orient t).map (addOffset off)).map fun r =>
          (r.getD 2 0 - off, r.getD 3 0 - 1, (r.getD 0 0 - off) * ((2 * parDim : ℕ) : Int) + r.getD 1 0 - 1)) t1 = some t2 ∧
      t2.length = n * (2 * parDim) ∧ ∀ p < n * (2 * parDim), t2.getD p 0 = if 0 ≤ t.getD p 0 then t.getD p 0 else t0.getD p 0 := by
  generalize 2 * parDim = f at *
  set L := (List.range t.length).filter fun i => decide (t.getD i 0 ≥ 0 ∧ t.getD i 0 > (i : Int)) with hL
  have hmem : ∀ i, i ∈ L ↔ i < n * f ∧ (i : Int) < t.getD i 0 := by
    intro i
    rw [hL, List.mem_filter, List.mem_range, h.size]
    constructor
    · rintro ⟨a, b⟩
      simp at b
      exact ⟨a, b.2⟩
    · rintro ⟨a, b⟩
      refine ⟨a, ?_⟩
      rw [decide_eq_true_eq]
      omega
  have hpart : ∀ i ∈ L, (t.getD i 0).toNat < n * f ∧ t.getD i 0 = ((t.getD i 0).toNat : Int) ∧ t.getD (t.getD i 0).toNat 0 = (i : Int) := by
    intro i hi
    obtain ⟨a, b⟩ := (hmem i).1 hi
    obtain ⟨q, hq, e1, _, e2⟩ := h.partner i a (by omega)
    rw [e1]
    simpa using ⟨hq, e2⟩
  have hrows : ((orientationRows f orient t).map (addOffset off)) = L.map fun i =>
      [((i / f : ℕ) : Int) + off, ((i % f : ℕ) : Int) + 1, t.getD i 0 / f + off, t.getD i 0 % f + 1] ++ orient i := by
    simp only [orientationRows, List.map_map, ← hL]
    rfl
  have hstart : (((orientationRows f orient t).map (addOffset off)).map fun r =>
          (r.getD 0 0 - off, r.getD 1 0 - 1, (r.getD 2 0 - off) * (f : Int) + r.getD 3 0 - 1))
      = (L.map fun i => (i / f, i % f)).map fun e => ((e.1 : Int), (e.2 : Int), t.getD (e.1 * f + e.2) 0) := by
    rw [hrows, List.map_map, List.map_map]
    apply List.map_congr_left
    intro i hi
    obtain ⟨a, b⟩ := (hmem i).1 hi
    have hd := (divmod_bounds a).2.2
    have := Int.ediv_mul_add_emod (t.getD i 0) f
    simp only [Function.comp, hd]
    simp
    simp at this
    linarith
  have hend : (((orientationRows f orient t).map (addOffset off)).map fun r =>
          (r.getD 2 0 - off, r.getD 3 0 - 1, (r.getD 0 0 - off) * (f : Int) + r.getD 1 0 - 1))
      = (L.map fun i => ((t.getD i 0).toNat / f, (t.getD i 0).toNat % f)).map fun e => ((e.1 : Int), (e.2 : Int), t.getD (e.1 * f + e.2) 0) := by
    rw [hrows, List.map_map, List.map_map]
    apply List.map_congr_left
    intro i hi
    obtain ⟨a, b⟩ := (hmem i).1 hi
    obtain ⟨p1, p2, p3⟩ := hpart i hi
    have hd := (divmod_bounds p1).2.2
    have hd2 := (divmod_bounds a).2.2
    simp only [Function.comp, hd, p3]
    generalize (t.getD i 0).toNat = q at *
    rw [p2]
    have h3 : ((i / f * f + i % f : ℕ) : Int) = (i : Int) := by rw [hd2]
    push_cast at h3
    simp
    linarith
  obtain ⟨t1, a1, a2, a3⟩ := assignAll_consistent n f (fun p => t.getD p 0) (L.map fun i => (i / f, i % f)) t0 h0 (by
    intro e he
    obtain ⟨i, hi, rfl⟩ := List.mem_map.1 he
    have := divmod_bounds ((hmem i).1 hi).1
    exact ⟨this.1, this.2.1⟩)
  obtain ⟨t2, b1, b2, b3⟩ := assignAll_consistent n f (fun p => t.getD p 0) (L.map fun i => ((t.getD i 0).toNat / f, (t.getD i 0).toNat % f)) t1 a2 (by
    intro e he
    obtain ⟨i, hi, rfl⟩ := List.mem_map.1 he
    have := divmod_bounds (hpart i hi).1
    exact ⟨this.1, this.2.1⟩)
  refine ⟨t1, t2, ?_, by rw [hstart]; exact a1, by rw [hend]; exact b1, b2, ?_⟩
  · apply reshapeRows_flatten (by omega) _ _ _ le_rfl
    rw [hrows]
    intro r hr
    obtain ⟨i, _, rfl⟩ := List.mem_map.1 hr
    simp [ho i]
  · intro p hp
    rw [b3 p hp, a3 p hp]
    have hm1 : p ∈ (L.map fun i => (i / f, i % f)).map (fun e => e.1 * f + e.2) ↔ (p : Int) < t.getD p 0 := by
      rw [List.map_map, List.mem_map]
      constructor
      · rintro ⟨i, hi, rfl⟩
        have := (divmod_bounds ((hmem i).1 hi).1).2.2
        simp only [Function.comp, this]
        exact ((hmem i).1 hi).2
      · intro hlt
        exact ⟨p, (hmem p).2 ⟨hp, hlt⟩, (divmod_bounds hp).2.2⟩
    have hm2 : p ∈ (L.map fun i => ((t.getD i 0).toNat / f, (t.getD i 0).toNat % f)).map (fun e => e.1 * f + e.2) ↔
        0 ≤ t.getD p 0 ∧ t.getD p 0 < p := by
      rw [List.map_map, List.mem_map]
      constructor
      · rintro ⟨i, hi, rfl⟩
        obtain ⟨p1, p2, p3⟩ := hpart i hi
        have hd := (divmod_bounds p1).2.2
        simp only [Function.comp, hd]
        have := ((hmem i).1 hi).2
        rw [p3]
        omega
      · rintro ⟨h1, h2⟩
        obtain ⟨q, hq, e1, _, e2⟩ := h.partner p hp h1
        refine ⟨q, (hmem q).2 ⟨hq, by omega⟩, ?_⟩
        simp only [Function.comp, e2, Int.toNat_natCast]
        exact (divmod_bounds hp).2.2
    simp only [hm1, hm2]
    by_cases hneg : 0 ≤ t.getD p 0
    · obtain ⟨q, hq, e1, hne, e2⟩ := h.partner p hp hneg
      by_cases hlt : t.getD p 0 < p
      · rw [if_pos ⟨hneg, hlt⟩, if_pos hneg]
      · have hgt : (p : Int) < t.getD p 0 := by omega
        simp only [hneg, hgt, hlt, and_false, if_false, if_true]
    · simp only [hneg, false_and, if_false]
      rw [if_neg (by omega)]

theorem no_interfaces {t : List Int} (h : (t.filter fun x => decide (x ≥ 0)).length = 0) (p : ℕ) (hp : p < t.length) : ¬ 0 ≤ t.getD p 0 := by
  intro h0
  have hm : t.getD p 0 ∈ t.filter fun x => decide (x ≥ 0) := by
    rw [List.mem_filter]
    refine ⟨?_, by simpa using h0⟩
    rw [List.getD_eq_getElem t 0 hp]
    exact List.getElem_mem hp
  rw [List.length_eq_zero_iff] at h
  rw [h] at hm
  simp at hm

theorem some_interface {n parDim : ℕ} {t : List Int} (h : Spec.Table n (2 * parDim) t) (orient : ℕ → List Int) (off : Int)
    (hn : (t.filter fun x => decide (x ≥ 0)).length ≠ 0) : ((orientationRows (2 * parDim) orient t).map (addOffset off)).flatten ≠ [] := by
  obtain ⟨x, hx⟩ := List.exists_mem_of_length_pos (Nat.pos_of_ne_zero hn)
  rw [List.mem_filter] at hx
  obtain ⟨p, hp, e⟩ := List.mem_iff_getElem.1 hx.1
  have hxp : t.getD p 0 = x := by rw [List.getD_eq_getElem t 0 hp, e]
  have h0 : 0 ≤ t.getD p 0 := by rw [hxp]; simpa using hx.2
  obtain ⟨q, hq, e1, hne, e2⟩ := h.partner p (h.size ▸ hp) h0
  have hex : ∃ i < t.length, (i : Int) < t.getD i 0 := by
    rcases Nat.lt_or_gt_of_ne hne with hlt | hgt
    · exact ⟨q, h.size ▸ hq, by omega⟩
    · exact ⟨p, hp, by omega⟩
  obtain ⟨i, hi, hlt⟩ := hex
  have hm : i ∈ (List.range t.length).filter fun i => decide (t.getD i 0 ≥ 0 ∧ t.getD i 0 > (i : Int)) := by
    rw [List.mem_filter, List.mem_range]
    refine ⟨hi, ?_⟩
    rw [decide_eq_true_eq]
    omega
  intro hemp
  have hm2 : addOffset off ([((i / (2 * parDim) : ℕ) : Int), ((i % (2 * parDim) : ℕ) : Int), t.getD i 0 / ((2 * parDim : ℕ) : Int), t.getD i 0 % ((2 * parDim : ℕ) : Int)]
      ++ orient i) ∈ ((orientationRows (2 * parDim) orient t).map (addOffset off)) :=
    List.mem_map_of_mem (List.mem_map_of_mem (f := fun (i : ℕ) =>
      [((i / (2 * parDim) : ℕ) : Int), ((i % (2 * parDim) : ℕ) : Int), t.getD i 0 / ((2 * parDim : ℕ) : Int), t.getD i 0 % ((2 * parDim : ℕ) : Int)] ++ orient i) hm)
  have := (List.flatten_eq_nil_iff.1 hemp) _ hm2
  simp [addOffset] at this

/-- Loading, once the boundary elements have been given by lists of faces. -/
theorem load_core (parDim n : ℕ) (orient : ℕ → List Int) (ho : ∀ i, (orient i).length = 2 * parDim) (t : List Int)
    (h : Spec.Table n (2 * parDim) t) (Fs : List (List (ℕ × ℕ))) (g : ℕ → Int)
    (hv : ∀ F ∈ Fs, ∀ e ∈ F, e.1 < n ∧ e.2 < 2 * parDim)
    (hg : ∀ (k : ℕ) F, Fs[k]? = some F → ∀ e ∈ F, g (e.1 * (2 * parDim) + e.2) = -(1 + k))
    (hcover : ∀ p < n * (2 * parDim), p ∈ Fs.flatten.map (fun e => e.1 * (2 * parDim) + e.2) ↔ t.getD p 0 < 0) (x : Xml)
    (hx1 : x.parDim = parDim) (hx2 : x.patches = (100, (n : Int) - 1 + 100))
    (hx3 : x.interfaces = if (t.filter fun x => decide (x ≥ 0)).length = 0 then [] else ((orientationRows (2 * parDim) orient t).map (addOffset 100)).flatten)
    (hx4 : x.boundaries = Fs.map fun F => (F.map fun pf => [(pf.1 : Int) + 100, (pf.2 : Int) + 1]).flatten) :
    ∃ t', loadTopology x = some t' ∧ t'.length = n * (2 * parDim) ∧
      ∀ p < n * (2 * parDim), t'.getD p 0 = if t.getD p 0 < 0 then g p else t.getD p 0 := by
  have hn : ((n : Int) - 1 + 100 - 100 + 1).toNat = n := by omega
  unfold loadTopology
  simp only [hx1, hx2, hx3, hx4, hn, Nat.mul_comm parDim 2]
  by_cases hempty : (t.filter fun x => decide (x ≥ 0)).length = 0
  · simp only [hempty, if_true, Option.bind_some]
    obtain ⟨t', a, b, c⟩ := assignBoundaries_consistent n (2 * parDim) 100 g Fs 1 (List.replicate (n * (2 * parDim)) (-99919412)) (by simp) hv hg
    refine ⟨t', a, b, fun p hp => ?_⟩
    rw [c p hp]
    have := no_interfaces hempty p (h.size ▸ hp)
    have hneg : t.getD p 0 < 0 := by omega
    rw [if_pos ((hcover p hp).2 hneg), if_pos hneg]
  · simp only [hempty, if_false, some_interface h orient 100 hempty]
    obtain ⟨t1, t2, r, a1, a2, a3, a4⟩ := interfaces_restored parDim n orient ho t (List.replicate (n * (2 * parDim)) (-99919412)) h (by simp) 100
    rw [r]
    simp only [Option.bind_some]
    rw [a1]
    simp only [Option.bind_some]
    rw [a2]
    simp only [Option.bind_some]
    obtain ⟨t', a, b, c⟩ := assignBoundaries_consistent n (2 * parDim) 100 g Fs 1 t2 a3 hv hg
    refine ⟨t', a, b, fun p hp => ?_⟩
    rw [c p hp, a4 p hp]
    by_cases hneg : t.getD p 0 < 0
    · rw [if_pos ((hcover p hp).2 hneg), if_pos hneg]
    · rw [if_neg (fun hh => hneg ((hcover p hp).1 hh)), if_neg hneg, if_pos (by omega)]

theorem mem_boundaries_pos {n f : ℕ} {t : List Int} (hs : t.length = n * f) (p : ℕ) (hp : p < n * f) :
    p ∈ (Multipatch.boundaries f t).flatten.map (fun e => e.1 * f + e.2) ↔ t.getD p 0 < 0 := by
  rw [List.mem_map]
  constructor
  · rintro ⟨e, he, rfl⟩
    obtain ⟨F, hF, he⟩ := List.mem_flatten.1 he
    obtain ⟨k, _, rfl⟩ := List.mem_map.1 hF
    obtain ⟨q, hq, rfl⟩ := List.mem_map.1 he
    rw [List.mem_filter, List.mem_range, hs] at hq
    have := (divmod_bounds hq.1).2.2
    simp only [this]
    have h2 := hq.2
    simp at h2
    simp
    omega
  · intro hneg
    refine ⟨(p / f, p % f), ?_, (divmod_bounds hp).2.2⟩
    rw [List.mem_flatten]
    have hmin := Multipatch.tableMin_le_getD (t := t) (p := p) (by omega)
    refine ⟨_, List.mem_map.2 ⟨(-(t.getD p 0)).toNat - 1, ?_, rfl⟩, ?_⟩
    · rw [List.mem_range]; omega
    · refine List.mem_map.2 ⟨p, ?_, rfl⟩
      rw [List.mem_filter, List.mem_range]
      refine ⟨by omega, ?_⟩
      rw [decide_eq_true_eq]
      omega

/-- C47: a table of interfaces written with labelled boundaries (the default) is read back unchanged, boundary ids included, whatever the ids and even if
some ids are not in use. Missing: `labeled_boundaries=False`, for which the ids are lost (`unlabeled_ids_violates`). -/
theorem topology_round_trip_partial (parDim n : ℕ) (orient : ℕ → List Int) (ho : ∀ i, (orient i).length = 2 * parDim) (t : List Int)
    (h : Spec.Table n (2 * parDim) t) : loadTopology (exportTopology true parDim n orient t) = some t := by
  obtain ⟨t', a, b, c⟩ := load_core parDim n orient ho t h (Multipatch.boundaries (2 * parDim) t) (fun p => t.getD p 0) (by
      intro F hF e he
      obtain ⟨k, _, rfl⟩ := List.mem_map.1 hF
      obtain ⟨q, hq, rfl⟩ := List.mem_map.1 he
      rw [List.mem_filter, List.mem_range, h.size] at hq
      have := divmod_bounds hq.1
      exact ⟨this.1, this.2.1⟩) (by
      intro k F hF e he
      have hk : k < (-(Multipatch.tableMin t)).toNat := by
        by_contra hk
        have : (Multipatch.boundaries (2 * parDim) t)[k]? = none := by
          rw [List.getElem?_eq_none]
          simpa [Multipatch.boundaries] using hk
        rw [this] at hF
        cases hF
      have hFe : F = ((List.range t.length).filter (fun p => decide (t.getD p 0 = -((k : Int) + 1)))).map (fun p => (p / (2 * parDim), p % (2 * parDim))) := by
        unfold Multipatch.boundaries at hF
        rw [List.getElem?_map, List.getElem?_range hk] at hF
        exact (Option.some.inj hF).symm
      subst hFe
      obtain ⟨q, hq, rfl⟩ := List.mem_map.1 he
      rw [List.mem_filter, List.mem_range, h.size] at hq
      have hd := (divmod_bounds hq.1).2.2
      have h2 := hq.2
      rw [decide_eq_true_eq] at h2
      simp only [hd, h2]
      ring) (fun p hp => mem_boundaries_pos h.size p hp) (exportTopology true parDim n orient t) rfl rfl rfl rfl
  rw [a]
  congr 1
  apply List.ext_getElem (by rw [b, h.size])
  intro i h1 h2
  have := c i (by omega)
  rw [List.getD_eq_getElem t' 0 h1, List.getD_eq_getElem t 0 h2] at this
  rw [this]
  split <;> rfl

/-- Without labels all boundary faces come back with the id 1 and the interfaces are restored. -/
theorem topology_unlabeled (parDim n : ℕ) (orient : ℕ → List Int) (ho : ∀ i, (orient i).length = 2 * parDim) (t : List Int)
    (h : Spec.Table n (2 * parDim) t) :
    loadTopology (exportTopology false parDim n orient t) = some (t.map fun x => if x < 0 then -1 else x) := by
  set L := (List.range t.length).filter fun i => decide (t.getD i 0 < 0) with hL
  set Fs : List (List (ℕ × ℕ)) := if L.length = 0 then [] else [L.map fun i => (i / (2 * parDim), i % (2 * parDim))] with hFs
  have hmem : ∀ i, i ∈ L ↔ i < n * (2 * parDim) ∧ t.getD i 0 < 0 := by
    intro i
    rw [hL, List.mem_filter, List.mem_range, h.size]
    simp
  have hFmem : ∀ F ∈ Fs, F = L.map fun i => (i / (2 * parDim), i % (2 * parDim)) := by
    intro F hF
    rw [hFs] at hF
    split at hF
    · simp at hF
    · simpa using hF
  obtain ⟨t', a, b, c⟩ := load_core parDim n orient ho t h Fs (fun _ => -1) (by
      intro F hF e he
      rw [hFmem F hF] at he
      obtain ⟨q, hq, rfl⟩ := List.mem_map.1 he
      have := divmod_bounds ((hmem q).1 hq).1
      exact ⟨this.1, this.2.1⟩) (by
      intro k F hF e he
      have : k = 0 := by
        by_contra hk
        have hlen : Fs.length ≤ 1 := by rw [hFs]; split <;> simp
        rw [List.getElem?_eq_none (by omega)] at hF
        cases hF
      subst this
      norm_num) (by
      intro p hp
      constructor
      · intro hm
        obtain ⟨e, he, rfl⟩ := List.mem_map.1 hm
        obtain ⟨F, hF, he⟩ := List.mem_flatten.1 he
        rw [hFmem F hF] at he
        obtain ⟨q, hq, rfl⟩ := List.mem_map.1 he
        have := (divmod_bounds ((hmem q).1 hq).1).2.2
        simp only [this]
        exact ((hmem q).1 hq).2
      · intro hneg
        have hp' := (hmem p).2 ⟨hp, hneg⟩
        have hl : L.length ≠ 0 := by
          intro h0
          rw [List.length_eq_zero_iff] at h0
          rw [h0] at hp'
          simp at hp'
        rw [hFs, if_neg hl]
        simp only [List.flatten_cons, List.flatten_nil, List.append_nil, List.map_map, List.mem_map]
        exact ⟨p, hp', (divmod_bounds hp).2.2⟩) (exportTopology false parDim n orient t) rfl rfl rfl (by
      rw [hFs]
      simp only [exportTopology]
      rw [← hL]
      by_cases h0 : L.length = 0
      · simp [h0]
      · simp [h0, Function.comp_def])
  rw [a]
  congr 1
  apply List.ext_getElem (by simp [b, h.size])
  intro i h1 h2
  have := c i (by omega)
  have hi : i < t.length := by simpa using h2
  rw [List.getD_eq_getElem t' 0 h1, List.getD_eq_getElem t 0 hi] at this
  rw [this, List.getElem_map]

/-- Two quads side by side: face 1 of the first and face 0 of the second are joined, the boundary ids 1, 3 and 4 are in use. -/
def exampleTable : List Int := [-1, 4, -3, -1, 1, -1, -4, -3]

theorem exampleTable_ok : Spec.Table 2 4 exampleTable := by
  refine ⟨rfl, ?_⟩
  intro p hp h0
  have : p = 1 ∨ p = 4 := by
    have h8 : p < 8 := hp
    interval_cases p <;> simp_all [exampleTable]
  rcases this with rfl | rfl
  · exact ⟨4, by norm_num, rfl, by norm_num, rfl⟩
  · exact ⟨1, by norm_num, rfl, by norm_num, rfl⟩

example : loadTopology (exportTopology true 2 2 (fun _ => [0, 1, 1, 1]) exampleTable) = some exampleTable :=
  topology_round_trip_partial 2 2 _ (fun _ => rfl) _ exampleTable_ok

/-- C47 fails without labels: the boundary ids are lost. -/
theorem unlabeled_ids_violates :
    Spec.Table 2 4 exampleTable ∧ loadTopology (exportTopology false 2 2 (fun _ => [0, 1, 1, 1]) exampleTable) = some [-1, 4, -1, -1, 1, -1, -1, -1] :=
  ⟨exampleTable_ok, by rw [topology_unlabeled 2 2 _ (fun _ => rfl) _ exampleTable_ok]; decide⟩

/-! ### C48 -/

/-- Order of a stable sort: by the entries, entries that are equal by their positions. -/
def Spec.Before (col : List ℕ) (a b : ℕ) : Prop := col.getD a 0 < col.getD b 0 ∨ (col.getD a 0 = col.getD b 0 ∧ a < b)

/-- What numpy documents for `np.argsort(…, kind="stable")`. -/
def Spec.StableArgsort (argsort : List ℕ → List ℕ) : Prop :=
  ∀ col : List ℕ, (argsort col).Perm (List.range col.length) ∧ (argsort col).Pairwise (Spec.Before col)

theorem countP_sorted {α : Type} (R : α → α → Prop) [DecidableRel R] (hasym : ∀ a b, R a b → ¬ R b a) (L : List α) (hL : L.Pairwise R) (k : ℕ)
    (hk : k < L.length) : L.countP (fun a => decide (R a L[k])) = k := by
  have hsplit : L = L.take k ++ L[k] :: L.drop (k + 1) := by
    rw [List.cons_getElem_drop_succ, List.take_append_drop]
  generalize hx : L[k] = x at *
  rw [hsplit] at hL ⊢
  rw [List.pairwise_append, List.pairwise_cons] at hL
  obtain ⟨_, ⟨h1, _⟩, h2⟩ := hL
  rw [List.countP_append, List.countP_cons]
  have e1 : (L.take k).countP (fun a => decide (R a x)) = k := by
    rw [List.countP_eq_length.2 (fun a ha => by simpa using h2 a ha x (by simp))]
    simp
    omega
  have e2 : (L.drop (k + 1)).countP (fun a => decide (R a x)) = 0 := by
    rw [List.countP_eq_zero]
    intro a ha
    simpa using hasym x a (h1 a ha)
  have e3 : ¬ R x x := fun h => hasym x x h h
  rw [e1, e2]
  simp [e3]

/-- Number of earlier positions with the same entry. -/
def earlier (col : List ℕ) (a : ℕ) : ℕ := (List.range a).countP fun b => decide (col.getD b 0 = col.getD a 0)

theorem countP_range_col (col : List ℕ) (P : ℕ → Bool) : (List.range col.length).countP (fun a => P (col.getD a 0)) = col.countP P := by
  have : (List.range col.length).map (fun a => col.getD a 0) = col := by
    apply List.ext_getElem (by simp)
    intro i h1 h2
    simp [List.getD_eq_getElem, h2]
  conv_rhs => rw [← this]
  rw [List.countP_map]
  rfl

theorem countP_or {α : Type} (l : List α) (P Q : α → Bool) (h : ∀ a ∈ l, ¬ (P a = true ∧ Q a = true)) :
    l.countP (fun a => P a || Q a) = l.countP P + l.countP Q := by
  induction l with
  | nil => rfl
  | cons x xs ih =>
    rw [List.countP_cons, List.countP_cons, List.countP_cons, ih (fun a ha => h a (by simp [ha]))]
    have := h x (by simp)
    cases hP : P x <;> cases hQ : Q x <;> simp_all <;> omega

theorem countP_lt_range (n a : ℕ) (ha : a ≤ n) (P : ℕ → Bool) : (List.range n).countP (fun b => P b && decide (b < a)) = (List.range a).countP P := by
  obtain ⟨m, rfl⟩ := Nat.exists_eq_add_of_le ha
  rw [List.range_add, List.countP_append]
  have e1 : (List.range a).countP (fun b => P b && decide (b < a)) = (List.range a).countP P := by
    apply List.countP_congr
    intro b hb
    rw [List.mem_range] at hb
    simp [hb]
  have e2 : ((List.range m).map (a + ·)).countP (fun b => P b && decide (b < a)) = 0 := by
    rw [List.countP_eq_zero]
    intro b hb
    obtain ⟨c, _, rfl⟩ := List.mem_map.1 hb
    simp
  rw [e1, e2]
  rfl

/-- Position of an entry in the sorted order. -/
theorem sorted_position {argsort : List ℕ → List ℕ} (hs : Spec.StableArgsort argsort) (col : List ℕ) (k : ℕ) (hk : k < (argsort col).length) :
    k = col.countP (fun x => decide (x < col.getD (argsort col)[k] 0)) + earlier col (argsort col)[k] := by
  obtain ⟨hperm, hsort⟩ := hs col
  classical
  have hdec : DecidableRel (Spec.Before col) := fun a b => by unfold Spec.Before; infer_instance
  have hlt : (argsort col)[k] < col.length := by
    have := hperm.mem_iff.1 (List.getElem_mem hk)
    simpa using this
  have h1 := countP_sorted (Spec.Before col) (by
    intro a b h h'
    unfold Spec.Before at h h'
    omega) (argsort col) hsort k hk
  rw [hperm.countP_eq] at h1
  generalize (argsort col)[k] = a at *
  have h2 : (List.range col.length).countP (fun b => decide (Spec.Before col b a))
      = (List.range col.length).countP (fun b => decide (col.getD b 0 < col.getD a 0) || (decide (col.getD b 0 = col.getD a 0) && decide (b < a))) := by
    apply List.countP_congr
    intro b _
    simp [Spec.Before]
  rw [h2, countP_or _ (fun b => decide (col.getD b 0 < col.getD a 0)) (fun b => decide (col.getD b 0 = col.getD a 0) && decide (b < a)) (by
      intro b _
      simp
      omega), countP_range_col col (fun x => decide (x < col.getD a 0)),
    countP_lt_range col.length a hlt.le (fun b => decide (col.getD b 0 = col.getD a 0))] at h1
  exact h1.symm

theorem foldl_max_ge (col : List ℕ) : ∀ m : ℕ, m ≤ col.foldl max m ∧ ∀ x ∈ col, x ≤ col.foldl max m := by
  induction col with
  | nil => simp
  | cons a l ih =>
    intro m
    have := ih (max m a)
    refine ⟨by simp only [List.foldl_cons]; omega, ?_⟩
    intro x hx
    simp only [List.foldl_cons]
    rcases List.mem_cons.1 hx with rfl | hx
    · omega
    · exact this.2 x hx

theorem foldl_max_mem (col : List ℕ) : ∀ m : ℕ, col.foldl max m = m ∨ col.foldl max m ∈ col := by
  induction col with
  | nil => simp
  | cons a l ih =>
    intro m
    simp only [List.foldl_cons]
    rcases ih (max m a) with h | h
    · rcases Nat.le_total m a with h' | h'
      · right; rw [h]; simp [Nat.max_eq_right h']
      · left; rw [h]; exact Nat.max_eq_left h'
    · right; simp [h]

theorem bincount_length (col : List ℕ) : (bincount col).length = col.foldl max 0 + 1 := by simp [bincount]

theorem bincount_getD (col : List ℕ) (v : ℕ) (hv : v < (bincount col).length) : (bincount col).getD v 0 = col.count v := by
  rw [List.getD_eq_getElem _ _ hv]
  simp [bincount]

theorem sum_take_bincount (col : List ℕ) : ∀ v : ℕ, v ≤ (bincount col).length → ((bincount col).take v).sum = col.countP (fun x => decide (x < v))
  | 0, _ => by simp
  | v + 1, hv => by
    rw [List.take_add_one, List.sum_append, sum_take_bincount col v (by omega)]
    have h1 : (bincount col)[v]?.toList.sum = col.count v := by
      rw [List.getElem?_eq_getElem (by omega)]
      have := bincount_getD col v (by omega)
      rw [List.getD_eq_getElem _ _ (by omega)] at this
      simp [this]
    rw [h1]
    have h2 := countP_or col (fun x => decide (x < v)) (fun x => x == v) (by intro a _; simp; omega)
    rw [← List.count, ] at h2
    rw [← h2]
    apply List.countP_congr
    intro a _
    simp
    omega

theorem cumsum_getD : ∀ (l : List ℕ) (s v : ℕ), v < l.length → (cumsum s l).getD v 0 = s + (l.take (v + 1)).sum
  | x :: xs, s, 0, _ => by simp [cumsum]
  | x :: xs, s, v + 1, h => by
    rw [cumsum, List.getD_cons_succ, cumsum_getD xs (s + x) v (by simpa using h)]
    simp
    omega

theorem cumsum_length : ∀ (l : List ℕ) (s : ℕ), (cumsum s l).length = l.length
  | [], _ => rfl
  | x :: xs, s => by simp [cumsum, cumsum_length xs]

theorem repeatEach_getElem : ∀ (xs cs : List ℕ) (v c : ℕ), xs.length = cs.length → v < cs.length → c < cs.getD v 0 →
    (repeatEach xs cs)[(cs.take v).sum + c]? = some (xs.getD v 0)
  | [], [], v, c, _, h, _ => by simp at h
  | x :: xs, m :: cs, 0, c, _, _, hc => by
    simp at hc
    simp [repeatEach, List.getElem?_append, hc]
  | x :: xs, m :: cs, v + 1, c, hl, h, hc => by
    have ih := repeatEach_getElem xs cs v c (by simpa using hl) (by simpa using h) (by simpa using hc)
    rw [repeatEach, List.take_succ_cons, List.sum_cons, List.getElem?_append_right (by simp; omega), List.getD_cons_succ, ← ih]
    congr 1
    simp
    omega
  | [], _ :: _, _, _, h, _, _ => by simp at h
  | _ :: _, [], _, _, h, _, _ => by simp at h

/-- The counter in the sorted order is the number of earlier positions with the same entry. -/
theorem counters_sorted {argsort : List ℕ → List ℕ} (hs : Spec.StableArgsort argsort) (col : List ℕ) (k : ℕ) (hk : k < (argsort col).length) :
    (counters col)[k]? = some (earlier col (argsort col)[k] : Int) := by
  have hpos := sorted_position hs col k hk
  obtain ⟨hperm, _⟩ := hs col
  have hlen : (argsort col).length = col.length := by simpa using hperm.length_eq
  have hlt : (argsort col)[k] < col.length := by
    have := hperm.mem_iff.1 (List.getElem_mem hk)
    simpa using this
  generalize (argsort col)[k] = a at *
  have hmem : col.getD a 0 ∈ col := by
    rw [List.getD_eq_getElem col 0 hlt]
    exact List.getElem_mem hlt
  have hv : col.getD a 0 < (bincount col).length := by
    rw [bincount_length]
    have := (foldl_max_ge col 0).2 _ hmem
    omega
  have hc : earlier col a < (bincount col).getD (col.getD a 0) 0 := by
    rw [bincount_getD col _ hv, List.count]
    rw [← countP_range_col col (fun x => x == col.getD a 0)]
    have h1 : earlier col a < (List.range (a + 1)).countP (fun b => col.getD b 0 == col.getD a 0) := by
      rw [List.range_succ, List.countP_append]
      have : (List.range a).countP (fun b => col.getD b 0 == col.getD a 0) = earlier col a := by
        apply List.countP_congr
        intro b _
        simp
      rw [this]
      simp
    refine lt_of_lt_of_le h1 ?_
    apply List.Sublist.countP_le
    exact List.range_sublist.2 (by omega)
  have hsh : (cumsum 0 (0 :: (bincount col).dropLast)).length = (bincount col).length := by
    rw [cumsum_length]
    simp
    rw [bincount_length]
    omega
  have hrep := repeatEach_getElem (cumsum 0 (0 :: (bincount col).dropLast)) (bincount col) (col.getD a 0) (earlier col a) hsh hv hc
  have hshift : (cumsum 0 (0 :: (bincount col).dropLast)).getD (col.getD a 0) 0 = col.countP (fun x => decide (x < col.getD a 0)) := by
    rw [cumsum_getD _ _ _ (by rw [← cumsum_length _ 0, hsh]; exact hv), ← sum_take_bincount col _ hv.le]
    simp only [List.take_succ_cons, List.sum_cons, zero_add]
    congr 1
    rw [List.dropLast_eq_take, List.take_take]
    congr 1
    omega
  rw [sum_take_bincount col _ hv.le, ← hpos, hshift] at hrep
  unfold counters
  rw [List.getElem?_zipWith, hrep, List.getElem?_range (by omega)]
  simp only [Option.some.injEq]
  omega

theorem scatter_spec (g : ℕ → Int) : ∀ (is : List ℕ) (vs t : List Int), is.length ≤ vs.length → (∀ k (h : k < is.length), vs[k]? = some (g is[k])) →
    (scatter is vs t).length = t.length ∧ ∀ p < t.length, (scatter is vs t).getD p 0 = if p ∈ is then g p else t.getD p 0
  | [], vs, t, _, _ => by cases vs <;> simp [scatter]
  | i :: is, [], t, h, _ => by simp at h
  | i :: is, v :: vs, t, h, hg => by
    have hv : v = g i := Option.some.inj (hg 0 (by simp))
    obtain ⟨h1, h2⟩ := scatter_spec g is vs (t.set i v) (by simpa using h) (fun k hk => hg (k + 1) (by simpa using hk))
    rw [scatter]
    refine ⟨by simpa using h1, ?_⟩
    intro p hp
    rw [h2 p (by simpa using hp)]
    by_cases hm : p ∈ is
    · simp [hm]
    · by_cases hpi : p = i
      · subst hpi
        simp [hm, List.getD_eq_getElem?_getD, List.getElem?_set, hp, hv]
      · have : i ≠ p := fun h => hpi h.symm
        simp [hm, hpi, this, List.getD_eq_getElem?_getD, List.getElem?_set]

theorem third_column {argsort : List ℕ → List ℕ} (hs : Spec.StableArgsort argsort) (col : List ℕ) :
    scatter (argsort col) (counters col) (List.replicate col.length 0) = (List.range col.length).map fun a => (earlier col a : Int) := by
  obtain ⟨hperm, _⟩ := hs col
  have hlen : (argsort col).length = col.length := by simpa using hperm.length_eq
  have hcl : (argsort col).length ≤ (counters col).length := by
    by_contra hlt
    push Not at hlt
    have := counters_sorted hs col (counters col).length hlt
    rw [List.getElem?_eq_none le_rfl] at this
    cases this
  obtain ⟨h1, h2⟩ := scatter_spec (fun a => (earlier col a : Int)) (argsort col) (counters col) (List.replicate col.length 0) hcl
    (fun k hk => counters_sorted hs col k hk)
  apply List.ext_getElem (by simp [h1])
  intro i hi1 hi2
  have hi : i < col.length := by simpa using hi2
  have := h2 i (by simpa using hi)
  rw [if_pos (hperm.mem_iff.2 (by simpa using hi)), List.getD_eq_getElem _ _ hi1] at this
  rw [this]
  simp

/-! the fields of a patch -/

theorem supportPairs_filter (on : ℕ → ℕ → Bool) (nP : ℕ) (mask : List ℕ) (i : ℕ) (hi : i < nP) :
    (supportPairs on nP mask).filter (fun p => decide (p.1 = i))
      = ((List.range mask.length).filter fun j => on (mask.getD j 0) i).map fun j => (i, j) := by
  unfold supportPairs
  generalize List.range mask.length = js
  induction js with
  | nil => rfl
  | cons j js ih =>
    rw [List.flatMap_cons, List.filter_append, ih, List.filter_map, List.filter_filter, List.filter_cons]
    have h1 : (List.range nP).filter (fun a => ((fun p : ℕ × ℕ => decide (p.1 = i)) ∘ fun i => (i, j)) a && on (mask.getD j 0) a)
        = if on (mask.getD j 0) i then [i] else [] := by
      have hsplit : List.range nP = List.range i ++ (i :: (List.range (nP - i - 1)).map (i + 1 + ·)) := by
        conv_lhs => rw [show nP = i + (1 + (nP - i - 1)) by omega, List.range_add, List.range_add]
        simp [Function.comp_def, Nat.add_assoc]
      rw [hsplit, List.filter_append, List.filter_cons]
      have e1 : (List.range i).filter (fun a => ((fun p : ℕ × ℕ => decide (p.1 = i)) ∘ fun i => (i, j)) a && on (mask.getD j 0) a) = [] := by
        rw [List.filter_eq_nil_iff]
        intro a ha
        rw [List.mem_range] at ha
        simp
        omega
      have e2 : ((List.range (nP - i - 1)).map (i + 1 + ·)).filter (fun a => ((fun p : ℕ × ℕ => decide (p.1 = i)) ∘ fun i => (i, j)) a && on (mask.getD j 0) a) = [] := by
        rw [List.filter_eq_nil_iff]
        intro a ha
        obtain ⟨b, _, rfl⟩ := List.mem_map.1 ha
        simp
        omega
      rw [e1, e2]
      cases on (mask.getD j 0) i <;> simp
    rw [h1]
    cases on (mask.getD j 0) i <;> simp

theorem mem_supportPairs (on : ℕ → ℕ → Bool) (nP : ℕ) (mask : List ℕ) (i j : ℕ) :
    (i, j) ∈ supportPairs on nP mask ↔ i < nP ∧ j < mask.length ∧ on (mask.getD j 0) i = true := by
  unfold supportPairs
  simp only [List.mem_flatMap, List.mem_range, List.mem_map, List.mem_filter, Prod.mk.injEq]
  constructor
  · rintro ⟨j', hj', i', ⟨hi', ho⟩, rfl, rfl⟩
    exact ⟨hi', hj', ho⟩
  · rintro ⟨h1, h2, h3⟩
    exact ⟨j, h2, i, ⟨h1, h3⟩, rfl, rfl⟩

/-- Number of fields of the mask before `j` that live on patch `i`. -/
def Spec.fieldsBefore (on : ℕ → ℕ → Bool) (mask : List ℕ) (i j : ℕ) : ℕ := ((mask.take j).filter fun k => on k i).length

theorem range_filter_length (on : ℕ → ℕ → Bool) (mask : List ℕ) (i j : ℕ) (hj : j ≤ mask.length) :
    ((List.range j).filter fun j' => on (mask.getD j' 0) i).length = Spec.fieldsBefore on mask i j := by
  unfold Spec.fieldsBefore
  have : mask.take j = (List.range j).map fun j' => mask.getD j' 0 := by
    apply List.ext_getElem (by simp; omega)
    intro a h1 h2
    have ha : a < mask.length := by simp at h1; omega
    simp [ha]
  rw [this, List.filter_map, List.length_map]
  rfl

theorem earlier_eq (on : ℕ → ℕ → Bool) (nP : ℕ) (mask : List ℕ) (a : ℕ) (ha : a < (supportPairs on nP mask).length) :
    earlier ((supportPairs on nP mask).map Prod.fst) a = Spec.fieldsBefore on mask (supportPairs on nP mask)[a].1 (supportPairs on nP mask)[a].2 := by
  have hmem := List.getElem_mem ha
  generalize hx : (supportPairs on nP mask)[a] = x at *
  obtain ⟨i, j⟩ := x
  obtain ⟨hi, hj, ho⟩ := (mem_supportPairs on nP mask i j).1 hmem
  have hf := supportPairs_filter on nP mask i hi
  have h0 : earlier ((supportPairs on nP mask).map Prod.fst) a = (((supportPairs on nP mask).take a).filter fun p => decide (p.1 = i)).length := by
    unfold earlier
    have ht : (supportPairs on nP mask).take a = (List.range a).map fun b => (supportPairs on nP mask).getD b (0, 0) := by
      apply List.ext_getElem (by simp; omega)
      intro b h1 h2
      have hb : b < (supportPairs on nP mask).length := by simp at h1; omega
      simp [hb]
    rw [ht, List.filter_map, List.length_map, List.countP_eq_length_filter]
    congr 1
    apply List.filter_congr
    intro b hb
    rw [List.mem_range] at hb
    have hb' : b < (supportPairs on nP mask).length := by omega
    simp [hb', ha, hx]
  have hsplit : supportPairs on nP mask = (supportPairs on nP mask).take a ++ (i, j) :: (supportPairs on nP mask).drop (a + 1) := by
    rw [← hx, List.cons_getElem_drop_succ, List.take_append_drop]
  rw [h0]
  set c := (((supportPairs on nP mask).take a).filter fun p => decide (p.1 = i)).length with hc
  have hget : (((List.range mask.length).filter fun j => on (mask.getD j 0) i).map fun j => (i, j))[c]? = some (i, j) := by
    rw [← hf, hsplit, List.filter_append, List.filter_cons]
    simp [hc]
  rw [List.getElem?_map, Option.map_eq_some_iff] at hget
  obtain ⟨j', hj', he⟩ := hget
  have : j' = j := by simpa using he
  subst this
  have hsplit2 : List.range mask.length = List.range j' ++ (j' :: (List.range (mask.length - j' - 1)).map (j' + 1 + ·)) := by
    conv_lhs => rw [show mask.length = j' + (1 + (mask.length - j' - 1)) by omega, List.range_add, List.range_add]
    simp [Function.comp_def, Nat.add_assoc]
  have hget2 : ((List.range mask.length).filter fun j => on (mask.getD j 0) i)[((List.range j').filter fun j' => on (mask.getD j' 0) i).length]? = some j' := by
    rw [hsplit2, List.filter_append, List.filter_cons, if_pos ho]
    simp
  have hnd : ((List.range mask.length).filter fun j => on (mask.getD j 0) i).Nodup := List.nodup_range.filter _
  have hc' : c < ((List.range mask.length).filter fun j => on (mask.getD j 0) i).length := by
    by_contra hge
    rw [List.getElem?_eq_none (by omega)] at hj'
    cases hj'
  have := (List.getElem?_inj hc' hnd).1 (hj'.trans hget2.symm)
  rw [this, range_filter_length on mask i j' hj.le]

/-- C48: the support matrix has one row for each patch and each field of the mask that lives on the patch; its third entry is the number of the fields of the
mask before this one that live on the patch, so the fields on a patch are numbered from zero in their order. The coefficients written for a patch are those
of the fields on the patch, and the field of a row is at the place the third entry says. -/
theorem support_numbering {argsort : List ℕ → List ℕ} (hs : Spec.StableArgsort argsort) (on : ℕ → ℕ → Bool) (nP : ℕ) (mask : List ℕ)
    (S : List (ℕ × ℕ × Int)) (h : supportMatrix argsort on nP mask = some S) :
    (∀ i j c, (i, j, c) ∈ S ↔ i < nP ∧ j < mask.length ∧ on (mask.getD j 0) i = true ∧ c = (Spec.fieldsBefore on mask i j : Int)) ∧
    (∀ i < nP, fieldsOnPatch mask S i = mask.filter fun k => on k i) ∧
    (∀ i j c, (i, j, c) ∈ S → (fieldsOnPatch mask S i)[c.toNat]? = some (mask.getD j 0)) ∧
    S.map (fun r => (r.1, r.2.1)) = supportPairs on nP mask := by
  unfold supportMatrix at h
  simp only at h
  split at h
  · cases h
  · split at h
    · cases h
    · rw [third_column hs, List.length_map] at h
      have hS : S = (List.range (supportPairs on nP mask).length).map fun a =>
          (((supportPairs on nP mask).getD a (0, 0)).1, ((supportPairs on nP mask).getD a (0, 0)).2,
            (Spec.fieldsBefore on mask ((supportPairs on nP mask).getD a (0, 0)).1 ((supportPairs on nP mask).getD a (0, 0)).2 : Int)) := by
        rw [← Option.some.inj h]
        apply List.ext_getElem (by simp)
        intro a h1 h2
        have ha : a < (supportPairs on nP mask).length := by simpa using h2
        simp [ha, earlier_eq on nP mask a ha]
      clear h
      have hpairs : S.map (fun r => (r.1, r.2.1)) = supportPairs on nP mask := by
        rw [hS, List.map_map]
        apply List.ext_getElem (by simp)
        intro a h1 h2
        simp [h2]
      have hmem : ∀ i j c, (i, j, c) ∈ S ↔ i < nP ∧ j < mask.length ∧ on (mask.getD j 0) i = true ∧ c = (Spec.fieldsBefore on mask i j : Int) := by
        intro i j c
        rw [hS, List.mem_map]
        constructor
        · rintro ⟨a, ha, he⟩
          rw [List.mem_range] at ha
          rw [List.getD_eq_getElem _ _ ha] at he
          have hm := List.getElem_mem ha
          generalize (supportPairs on nP mask)[a] = x at *
          obtain ⟨i', j'⟩ := x
          simp only [Prod.mk.injEq] at he
          obtain ⟨rfl, rfl, rfl⟩ := he
          obtain ⟨x, y, z⟩ := (mem_supportPairs on nP mask i' j').1 hm
          exact ⟨x, y, z, rfl⟩
        · rintro ⟨h1, h2, h3, h4⟩
          obtain ⟨a, ha, he⟩ := List.mem_iff_getElem.1 ((mem_supportPairs on nP mask i j).2 ⟨h1, h2, h3⟩)
          refine ⟨a, by simpa using ha, ?_⟩
          rw [List.getD_eq_getElem _ _ ha, he, h4]
      have hfields : ∀ i < nP, fieldsOnPatch mask S i = mask.filter fun k => on k i := by
        intro i hi
        unfold fieldsOnPatch
        have e1 : (S.filter fun r => decide (r.1 = i)).map (fun r => mask.getD r.2.1 0)
            = ((supportPairs on nP mask).filter fun p => decide (p.1 = i)).map fun p => mask.getD p.2 0 := by
          rw [← hpairs, List.filter_map, List.map_map]
          rfl
        rw [e1, supportPairs_filter on nP mask i hi, List.map_map]
        have e2 : mask = (List.range mask.length).map fun j => mask.getD j 0 := by
          apply List.ext_getElem (by simp)
          intro a h1 h2
          simp [h1]
        conv_rhs => rw [e2, List.filter_map]
        rfl
      refine ⟨hmem, hfields, ?_, hpairs⟩
      intro i j c hm
      obtain ⟨h1, h2, h3, h4⟩ := (hmem i j c).1 hm
      rw [hfields i h1, h4, Int.toNat_natCast]
      have hsplit : mask = mask.take j ++ mask.getD j 0 :: mask.drop (j + 1) := by
        rw [List.getD_eq_getElem _ _ h2, List.cons_getElem_drop_succ, List.take_append_drop]
      unfold Spec.fieldsBefore
      have hfil : (mask.filter fun k => on k i) = ((mask.take j).filter fun k => on k i) ++ mask.getD j 0 :: ((mask.drop (j + 1)).filter fun k => on k i) := by
        conv_lhs => rw [hsplit, List.filter_append, List.filter_cons, if_pos h3]
      rw [hfil]
      simp

/-- The export is accepted exactly if the patches on which at least one field of the mask lives are `0, …, m` for some `m`. -/
theorem support_accepted_iff (argsort : List ℕ → List ℕ) (on : ℕ → ℕ → Bool) (nP : ℕ) (mask : List ℕ) :
    (∃ S, supportMatrix argsort on nP mask = some S) ↔ ∃ m, ∀ i, (i < nP ∧ ∃ k ∈ mask, on k i = true) ↔ i ≤ m := by
  set col := (supportPairs on nP mask).map Prod.fst with hcol
  have hmem : ∀ i, i ∈ col ↔ i < nP ∧ ∃ k ∈ mask, on k i = true := by
    intro i
    rw [hcol, List.mem_map]
    constructor
    · rintro ⟨⟨i', j⟩, h, rfl⟩
      obtain ⟨h1, h2, h3⟩ := (mem_supportPairs on nP mask i' j).1 h
      refine ⟨h1, _, ?_, h3⟩
      rw [List.getD_eq_getElem _ _ h2]
      exact List.getElem_mem h2
    · rintro ⟨h1, k, h2, h3⟩
      obtain ⟨j, hj, rfl⟩ := List.mem_iff_getElem.1 h2
      exact ⟨(i, j), (mem_supportPairs on nP mask i j).2 ⟨h1, hj, by rwa [List.getD_eq_getElem _ _ hj]⟩, rfl⟩
  have hsub : col.dedup ⊆ List.range (col.foldl max 0 + 1) := by
    intro x hx
    have := (foldl_max_ge col 0).2 x (List.mem_dedup.1 hx)
    rw [List.mem_range]; omega
  have hiff : (∃ S, supportMatrix argsort on nP mask = some S) ↔ supportPairs on nP mask ≠ [] ∧ col.dedup.length = col.foldl max 0 + 1 := by
    unfold supportMatrix
    simp only [← hcol]
    by_cases h1 : supportPairs on nP mask = []
    · simp [h1]
    · by_cases h2 : col.dedup.length = col.foldl max 0 + 1
      · simp [h1, h2]
      · simp [h1, h2]
  rw [hiff]
  constructor
  · rintro ⟨h1, h2⟩
    refine ⟨col.foldl max 0, fun i => ?_⟩
    rw [← hmem]
    constructor
    · exact fun h => (foldl_max_ge col 0).2 i h
    · intro hi
      have hperm : col.dedup.Perm (List.range (col.foldl max 0 + 1)) :=
        (List.subperm_of_subset (List.nodup_dedup col) hsub).perm_of_length_le (by simp [h2])
      exact List.mem_dedup.1 (hperm.mem_iff.2 (by simp; omega))
  · rintro ⟨m, hm⟩
    have hm' : ∀ i, i ∈ col ↔ i ≤ m := fun i => by rw [hmem, hm]
    have hne : supportPairs on nP mask ≠ [] := by
      intro h
      have := (hm' 0).2 (by omega)
      rw [hcol, h] at this
      simp at this
    refine ⟨hne, ?_⟩
    have hmax : col.foldl max 0 = m := by
      apply le_antisymm
      · rcases foldl_max_mem col 0 with h | h
        · omega
        · exact (hm' _).1 h
      · exact (foldl_max_ge col 0).2 m ((hm' m).2 le_rfl)
    have hperm : (List.range (m + 1)).Perm col.dedup := by
      apply (List.perm_ext_iff_of_nodup List.nodup_range (List.nodup_dedup col)).2
      intro a
      rw [List.mem_dedup, hm', List.mem_range]
      omega
    rw [hmax, ← hperm.length_eq]
    simp

/-- A stable sort of positions. -/
def exampleArgsort (col : List ℕ) : List ℕ :=
  (List.range col.length).insertionSort fun a b => col.getD a 0 < col.getD b 0 ∨ (col.getD a 0 = col.getD b 0 ∧ a ≤ b)

theorem exampleArgsort_stable : Spec.StableArgsort exampleArgsort := by
  intro col
  have hperm : (exampleArgsort col).Perm (List.range col.length) := List.perm_insertionSort _ _
  refine ⟨hperm, ?_⟩
  have : Std.Total (fun a b : ℕ => col.getD a 0 < col.getD b 0 ∨ (col.getD a 0 = col.getD b 0 ∧ a ≤ b)) := ⟨fun a b => by omega⟩
  have : IsTrans ℕ (fun a b : ℕ => col.getD a 0 < col.getD b 0 ∨ (col.getD a 0 = col.getD b 0 ∧ a ≤ b)) := ⟨fun a b c => by omega⟩
  have hs := List.pairwise_insertionSort (fun a b : ℕ => col.getD a 0 < col.getD b 0 ∨ (col.getD a 0 = col.getD b 0 ∧ a ≤ b)) (List.range col.length)
  have hnd : (exampleArgsort col).Nodup := hperm.nodup_iff.2 List.nodup_range
  refine (hs.and hnd).imp ?_
  intro a b h
  unfold Spec.Before
  have := h.2
  omega

/-- Field 0 lives on patch 0 and 1, field 1 on patch 1, field 2 on patches 0 and 1. -/
example : supportMatrix exampleArgsort (fun k i => decide (k ≠ 1 ∨ i = 1)) 2 [0, 1, 2] = some [(0, 0, 0), (1, 0, 0), (1, 1, 1), (0, 2, 1), (1, 2, 2)] := by
  decide

/-- A gap in the patches with fields is rejected. -/
example : supportMatrix exampleArgsort (fun _ i => decide (i ≠ 1)) 3 [0, 1] = none := by decide

end Splinepy.Gismo
