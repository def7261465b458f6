import Verif.Spec.MixedRadix
import Mathlib.Data.List.Nodup
import Mathlib.Tactic.Linarith
import Mathlib.Tactic.Ring

namespace Splinepy.Spec

theorem digits_length (rs : List ℕ) (id : ℕ) : (digits rs id).length = rs.length := by
  induction rs generalizing id with
  | nil => rfl
  | cons r rs ih => simp [digits, ih]

theorem digits_inGrid (rs : List ℕ) (id : ℕ) (h : ∀ r ∈ rs, 0 < r) : InGrid rs (digits rs id) := by
  induction rs generalizing id with
  | nil => exact List.Forall₂.nil
  | cons r rs ih =>
    exact List.Forall₂.cons (Nat.mod_lt _ (h r (by simp))) (ih _ (fun x hx => h x (by simp [hx])))

theorem flat_lt (rs cs : List ℕ) (h : InGrid rs cs) : flat rs cs < rs.prod := by
  induction h with
  | nil => simp [flat]
  | @cons r c rs cs hc _ ih =>
    simp only [flat, List.prod_cons]
    calc c + r * flat rs cs < r + r * flat rs cs := by omega
      _ = r * (flat rs cs + 1) := by ring
      _ ≤ r * rs.prod := Nat.mul_le_mul_left _ ih

theorem digits_flat (rs cs : List ℕ) (h : InGrid rs cs) : digits rs (flat rs cs) = cs := by
  induction h with
  | nil => rfl
  | @cons r c rs cs hc _ ih =>
    simp only [flat, digits]
    rw [Nat.add_mul_mod_self_left, Nat.mod_eq_of_lt hc, Nat.add_mul_div_left _ _ (by omega),
      Nat.div_eq_of_lt hc, Nat.zero_add, ih]

theorem flat_digits (rs : List ℕ) (id : ℕ) (h : id < rs.prod) : flat rs (digits rs id) = id := by
  induction rs generalizing id with
  | nil => simp at h; simp [flat, h]
  | cons r rs ih =>
    simp only [List.prod_cons] at h
    simp only [digits, flat]
    rw [ih (id / r) (Nat.div_lt_of_lt_mul h)]
    exact Nat.mod_add_div id r

theorem digits_getElem (rs : List ℕ) (id d : ℕ) (hd : d < rs.length) :
    (digits rs id)[d]'(by rw [digits_length]; exact hd) = (id / (rs.take d).prod) % rs[d] := by
  induction rs generalizing id d with
  | nil => simp at hd
  | cons r rs ih =>
    cases d with
    | zero => simp [digits]
    | succ d =>
      simp only [digits, List.getElem_cons_succ, List.take_succ_cons, List.prod_cons]
      rw [ih (id / r) d (by simpa using hd), Nat.div_div_eq_div_mul]

theorem flat_inj (rs cs cs' : List ℕ) (h : InGrid rs cs) (h' : InGrid rs cs') (he : flat rs cs = flat rs cs') :
    cs = cs' := by
  rw [← digits_flat rs cs h, he, digits_flat rs cs' h']

theorem digits_inj (rs : List ℕ) (i j : ℕ) (hi : i < rs.prod) (hj : j < rs.prod)
    (h : digits rs i = digits rs j) : i = j := by
  rw [← flat_digits rs i hi, h, flat_digits rs j hj]

theorem inGrid_length {rs cs : List ℕ} (h : InGrid rs cs) : rs.length = cs.length := List.Forall₂.length_eq h

theorem inGrid_iff {rs cs : List ℕ} : InGrid rs cs ↔ ∃ h : rs.length = cs.length, ∀ d (hd : d < rs.length),
    cs[d]'(by omega) < rs[d] := by
  unfold InGrid
  rw [List.forall₂_iff_get]
  constructor
  · rintro ⟨h, h2⟩
    exact ⟨h, fun d hd => by simpa using h2 d hd (by omega)⟩
  · rintro ⟨h, h2⟩
    exact ⟨h, fun d hd _ => by simpa using h2 d hd⟩

theorem prod_pos_of_forall {rs : List ℕ} (h : ∀ r ∈ rs, 0 < r) : 0 < rs.prod := by
  induction rs with
  | nil => simp
  | cons r rs ih =>
    rw [List.prod_cons]
    exact Nat.mul_pos (h r (by simp)) (ih (fun x hx => h x (by simp [hx])))

end Splinepy.Spec
