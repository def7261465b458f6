import Verif.Model.FlagRace
import Verif.Props.BoundaryLabels

/-!
C58: the labels do not depend on the number of threads (violated).
-/
namespace Splinepy.FlagRace
open Splinepy.BoundaryLabels

/-- all assignments were made -/
def Spec.Finished (c : Config) : Prop := ∀ th ∈ c.threads, th.pending = []

/-- the labels computed from given flags -/
def labelsOf (nF nB : ℕ) (bi : List Int) (flags : List Bool) : Option (List ℕ) :=
  (assignLoop nF nB bi flags (List.range nB) { assigned := List.replicate nB false, ids := List.replicate nB 0, queue := [] } 1).map (·.1.ids)

/-- Four boundary curves that form a smooth ring, labelled with two threads (two curves each). There is a schedule in which every thread makes all its
assignments, but the second thread stores a word it loaded before the first thread began: six of the eight flags are lost, and the ring falls
apart into three boundaries instead of one. -/
theorem flag_race_violates :
    let bi : List Int := [7, 2, 1, 4, 3, 6, 5, 0]
    let g1 := fun (_ _ _ _ : ℕ) => true
    let start : Config := { word := List.replicate 8 false, threads := [⟨assignments 2 4 bi g1 0 2, none⟩, ⟨assignments 2 4 bi g1 2 4, none⟩] }
    ∃ schedule, Spec.Finished (run start schedule) ∧
      labelsOf 2 4 bi (run start schedule).word = some [1, 2, 3, 3] ∧
      (precompute 2 4 bi g1).bind (labelsOf 2 4 bi) = some [1, 1, 1, 1] := by
  intro bi g1 start
  refine ⟨[1] ++ List.replicate 12 0 ++ [1, 1, 1], ?_, by decide, by decide⟩
  intro th hth
  have : (run start ([1] ++ List.replicate 12 0 ++ [1, 1, 1])).threads.all (fun th => th.pending.isEmpty) = true := by decide
  rw [List.all_eq_true] at this
  simpa using this th hth

/-- the assignments made by a schedule without interruption between load and store: the order of the assignments is the order of the schedule -/
def serial : List (List (ℕ × Bool)) → List ℕ → List (ℕ × Bool)
  | _, [] => []
  | pend, t :: ts =>
    match pend[t]? with
    | some (a :: rest) => a :: serial (pend.set t rest) ts
    | _ => serial pend ts

/-- C58, partial: if no thread is interrupted between its load and its store, all assignments take effect, in schedule order. -/
theorem flags_uninterrupted_partial (word : List Bool) (pend : List (List (ℕ × Bool))) (ts : List ℕ) :
    (run { word := word, threads := pend.map (fun p => ⟨p, none⟩) } (ts.flatMap (fun t => [t, t]))).word =
      (serial pend ts).foldl (fun w a => w.set a.1 a.2) word := by
  induction ts generalizing word pend with
  | nil => rfl
  | cons t ts ih =>
    rw [List.flatMap_cons]
    unfold run
    rw [List.foldl_append]
    have hstep : List.foldl step { word := word, threads := pend.map (fun p => (⟨p, none⟩ : Thread)) } [t, t] =
        match pend[t]? with
        | some (a :: rest) => { word := word.set a.1 a.2, threads := (pend.set t rest).map (fun p => (⟨p, none⟩ : Thread)) }
        | _ => { word := word, threads := pend.map (fun p => (⟨p, none⟩ : Thread)) } := by
      simp only [List.foldl_cons, List.foldl_nil]
      cases hp : pend[t]? with
      | none =>
        have h1 : step { word := word, threads := pend.map (fun p => (⟨p, none⟩ : Thread)) } t = { word := word, threads := pend.map (fun p => (⟨p, none⟩ : Thread)) } := by
          unfold step; simp [hp]
        rw [h1, h1]
      | some l =>
        cases l with
        | nil =>
          have h1 : step { word := word, threads := pend.map (fun p => (⟨p, none⟩ : Thread)) } t = { word := word, threads := pend.map (fun p => (⟨p, none⟩ : Thread)) } := by
            unfold step; simp [hp]
          rw [h1, h1]
        | cons a rest =>
          have hlt : t < pend.length := by
            by_contra h
            rw [List.getElem?_eq_none (by omega)] at hp
            exact absurd hp (by simp)
          have h1 : step { word := word, threads := pend.map (fun p => (⟨p, none⟩ : Thread)) } t =
              { word := word, threads := (pend.map (fun p => (⟨p, none⟩ : Thread))).set t ⟨a :: rest, some word⟩ } := by
            unfold step; simp [hp]
          rw [h1]
          unfold step
          simp [hlt, List.map_set]
    rw [hstep]
    cases hp : pend[t]? with
    | none => simp only [serial, hp]; exact ih word pend
    | some l =>
      cases l with
      | nil => simp only [serial, hp]; exact ih word pend
      | cons a rest =>
        simp only [serial, hp, List.foldl_cons]
        exact ih _ _

/-- example for `flags_uninterrupted_partial`: two threads, alternating -/
example : serial [[(0, true), (3, true)], [(1, true)]] [0, 1, 0] = [(0, true), (1, true), (3, true)] := by decide

end Splinepy.FlagRace
