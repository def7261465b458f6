import Verif.Lemma.Grid
import Mathlib.Data.List.InsertIdx

namespace Splinepy.Grid
open Splinepy.Spec

theorem sub_mod_div (id r : ℕ) : (id - id % r) / r = id / r := by
  rcases Nat.eq_zero_or_pos r with h | h
  · subst h; simp
  · have h1 := Nat.div_add_mod id r
    rw [show id - id % r = r * (id / r) by omega, Nat.mul_div_cancel_left _ h]

theorem localToGlobalGo_after (axis p : ℕ) (rs : List ℕ) (i off id g : ℕ) (h : axis < i) :
    localToGlobalGo axis p rs i off id g = g + off * flat rs (digits rs id) := by
  induction rs generalizing i off id g with
  | nil => simp [localToGlobalGo, flat]
  | cons r rs ih =>
    rw [localToGlobalGo, if_neg (by omega)]
    simp only
    rw [ih _ _ _ _ (by omega), sub_mod_div]
    simp only [digits, flat]; ring

theorem localToGlobalGo_eq (axis p : ℕ) (rs : List ℕ) (i off id g : ℕ) (h : i ≤ axis) (h2 : axis - i < rs.length) :
    localToGlobalGo axis p rs i off id g =
      g + off * flat rs ((digits (rs.eraseIdx (axis - i)) id).insertIdx (axis - i) p) := by
  induction rs generalizing i off id g with
  | nil => simp at h2
  | cons r rs ih =>
    rw [localToGlobalGo]
    by_cases hi : i = axis
    · rw [if_pos hi, localToGlobalGo_after _ _ _ _ _ _ _ (by omega)]
      subst hi
      simp [flat]; ring
    · rw [if_neg hi]
      simp only
      rw [ih _ _ _ _ (by omega) (by simp at h2; omega), sub_mod_div]
      obtain ⟨a, ha⟩ : ∃ a, axis - i = a + 1 := ⟨axis - i - 1, by omega⟩
      rw [ha, show axis - (i + 1) = a by omega]
      simp only [List.eraseIdx_cons_succ, digits, List.insertIdx_succ_cons, flat]
      ring

theorem nPointsOnPlane_foldl (axis : ℕ) (res : List ℕ) (k n : ℕ) :
    (res.zipIdx k).foldl (fun n ri => if ri.2 = axis then n else n * ri.1) n =
      n * (if k ≤ axis then (res.eraseIdx (axis - k)).prod else res.prod) := by
  induction res generalizing k n with
  | nil => simp
  | cons r res ih =>
    rw [List.zipIdx_cons, List.foldl_cons, ih]
    by_cases h : k = axis
    · subst h
      simp
    · rw [if_neg h]
      by_cases h2 : k ≤ axis
      · rw [if_pos (by omega), if_pos h2]
        obtain ⟨a, ha⟩ : ∃ a, axis - k = a + 1 := ⟨axis - k - 1, by omega⟩
        rw [ha, show axis - (k + 1) = a by omega]
        simp [Nat.mul_assoc]
      · rw [if_neg (by omega), if_neg h2]
        simp [Nat.mul_assoc]

theorem nPointsOnPlane_eq (axis : ℕ) (res : List ℕ) :
    nPointsOnPlane axis res = (res.eraseIdx axis).prod := by
  unfold nPointsOnPlane
  rw [nPointsOnPlane_foldl]
  simp

theorem inGrid_insertIdx (rs cs : List ℕ) (a p : ℕ) (ha : a < rs.length) (hp : p < rs[a])
    (h : InGrid (rs.eraseIdx a) cs) : InGrid rs (cs.insertIdx a p) := by
  induction rs generalizing a cs with
  | nil => simp at ha
  | cons r rs ih =>
    cases a with
    | zero =>
      simp only [List.eraseIdx_cons_zero] at h
      simp only [List.insertIdx_zero]
      exact List.Forall₂.cons (by simpa using hp) h
    | succ a =>
      simp only [List.eraseIdx_cons_succ] at h
      cases h with
      | cons h1 h2 =>
        simp only [List.insertIdx_succ_cons]
        exact List.Forall₂.cons h1 (ih _ a (by simpa using ha) (by simpa using hp) h2)

theorem inGrid_eraseIdx (rs cs : List ℕ) (a : ℕ) (h : InGrid rs cs) :
    InGrid (rs.eraseIdx a) (cs.eraseIdx a) := by
  induction h generalizing a with
  | nil => exact List.Forall₂.nil
  | cons h1 h2 ih =>
    cases a with
    | zero => exact h2
    | succ a => exact List.Forall₂.cons h1 (ih a)

theorem insertIdx_eraseIdx_self (cs : List ℕ) (a : ℕ) (h : a < cs.length) :
    (cs.eraseIdx a).insertIdx a cs[a] = cs := by
  induction cs generalizing a with
  | nil => simp at h
  | cons c cs ih =>
    cases a with
    | zero => simp
    | succ a => simp [ih a (by simpa using h)]

end Splinepy.Grid
