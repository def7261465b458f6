import Verif.Spec.Product
import Verif.Lemma.MixedRadix
import Verif.Lemma.Grid

namespace Splinepy.Spec

theorem mem_firstFastest {α : Type*} (ls : List (List α)) (x : List α) :
    x ∈ firstFastest ls ↔ List.Forall₂ (fun l a => a ∈ l) ls x := by
  induction ls generalizing x with
  | nil => simp [firstFastest]
  | cons l ls ih =>
    simp only [firstFastest, List.mem_flatMap, List.mem_map]
    constructor
    · rintro ⟨t, ht, a, ha, rfl⟩
      exact List.Forall₂.cons ha ((ih t).1 ht)
    · intro h
      cases h with
      | cons h1 h2 => exact ⟨_, (ih _).2 h2, _, h1, rfl⟩

theorem nodup_firstFastest {α : Type*} (ls : List (List α)) (h : ∀ l ∈ ls, l.Nodup) : (firstFastest ls).Nodup := by
  induction ls with
  | nil => simp [firstFastest]
  | cons l ls ih =>
    simp only [firstFastest]
    rw [List.nodup_flatMap]
    refine ⟨fun t _ => (h l (by simp)).map (fun a b hab => by simpa using hab), ?_⟩
    have := ih (fun l hl => h l (by simp [hl]))
    refine List.Pairwise.imp ?_ this
    intro s t hst
    rw [Function.onFun, List.disjoint_iff_ne]
    intro a ha b hb hab
    obtain ⟨x, _, rfl⟩ := List.mem_map.1 ha
    obtain ⟨y, _, rfl⟩ := List.mem_map.1 hb
    simp only [List.cons.injEq] at hab
    exact hst hab.2

theorem firstFastest_append {α : Type*} (ls : List (List α)) (a : List α) :
    firstFastest (ls ++ [a]) = a.flatMap (fun x => (firstFastest ls).map (fun t => t ++ [x])) := by
  induction ls with
  | nil =>
    simp only [List.nil_append, firstFastest, List.flatMap_cons, List.flatMap_nil, List.append_nil, List.map_cons,
      List.map_nil]
    induction a with
    | nil => rfl
    | cons b a ih => simp [ih]
  | cons l ls ih =>
    simp only [List.cons_append, firstFastest, ih]
    rw [List.flatMap_assoc]
    congr 1
    funext x
    rw [List.flatMap_map, List.map_flatMap]
    congr 1
    funext t
    simp [List.map_map, Function.comp_def]

theorem lastFastest_eq {α : Type*} (ls : List (List α)) :
    lastFastest ls = (firstFastest ls.reverse).map List.reverse := by
  induction ls with
  | nil => rfl
  | cons l ls ih =>
    rw [List.reverse_cons, firstFastest_append, List.map_flatMap, lastFastest, ih]
    congr 1
    funext x
    simp [List.map_map, Function.comp_def]

/-- rows addressed by digits are all combinations, first list fastest -/
theorem digits_rows {α : Type*} (ls : List (List α)) :
    (List.range (ls.map List.length).prod).map
      (fun r => List.zipWith (fun (l : List α) k => l[k]?) ls (digits (ls.map List.length) r)) =
    (firstFastest ls).map (fun x => x.map some) := by
  induction ls with
  | nil => simp [firstFastest, digits]
  | cons l ls ih =>
    simp only [List.map_cons, List.prod_cons, digits, List.zipWith_cons_cons, firstFastest]
    rw [List.map_flatMap]
    have h1 : ∀ t : List α, ((l.map (fun x => x :: t)).map (fun x => x.map some)) =
        (List.range l.length).map (fun k => l[k]? :: t.map some) := by
      intro t
      apply List.ext_getElem
      · simp
      · intro i h1 h2
        simp at h1 ⊢
    simp only [h1]
    have h2 : (firstFastest ls).flatMap (fun t => (List.range l.length).map (fun k => l[k]? :: t.map some)) =
        ((firstFastest ls).map (fun x => x.map some)).flatMap (fun t => (List.range l.length).map (fun k => l[k]? :: t)) := by
      rw [List.flatMap_map]
    rw [h2, ← ih, List.flatMap_map, Nat.mul_comm]
    have := Splinepy.range_flatMap_range (ls.map List.length).prod l.length
      (fun q k => l[k]? :: List.zipWith (fun (l : List α) k => l[k]?) ls (digits (ls.map List.length) q))
    rw [this]

end Splinepy.Spec
