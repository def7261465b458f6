import Verif.Props.Slsqp
import Verif.Props.Proximity

/-!
C30, C131: the whole proximity query terminates, without an assumption about `slsqp`: its calls are those of `Verif/Model/Slsqp.lean`.
-/

namespace Splinepy.Proximity

variable {K : Type} [Field K] [LinearOrder K] [IsStrictOrderedRing K] {pd d : ℕ}

/-- The results of the calls of `slsqp` in a query with `M` allowed iterations are those of the routine, for some bounds, start and tolerance, with some gradients and values (`objective`)
and some solutions of the quadratic subproblems (in `r`). -/
def Spec.FromRoutine (e : Env K pd d) (M : ℕ) : Prop :=
  ∃ (r : Slsqp.Env K) (x : List K) (tolerance : K) (mem : Slsqp.State K) (objective : ℕ → K × List K),
    Slsqp.Box r ∧ r.xl.length = pd ∧ (∀ k, (objective k).2.length = pd) ∧
      ∀ k, e.slsqp k = (fun i : Fin pd => (Slsqp.run r objective (Slsqp.setup x tolerance M mem) k).x.getD i 0, (Slsqp.run r objective (Slsqp.setup x tolerance M mem) k).mode)

/-- C30: the whole query returns, with at most `60 * max_iter + 18` passes in each of its loops, for every spline, every query and every solution of the quadratic subproblems of `slsqp`. -/
theorem query_terminates_slsqp (e : Env K pd d) (g : Grid.GridPoints K) (nearest : ℕ) (tight : Bool) (query : Fin d → K)
    (tol : K) (maxIter : ℤ) (mem : Data K pd d) (hn : (Grid.idToGridPoint g nearest).isSome) (fuel : ℕ)
    (hs : Spec.FromRoutine e (5 * if maxIter < 0 then pd * 20 else maxIter.toNat))
    (hf : 60 * (if maxIter < 0 then pd * 20 else maxIter.toNat) + 17 < fuel) :
    (verboseQuery e fuel (some g) nearest tight query tol maxIter mem).isSome := by
  generalize hM : (if maxIter < 0 then pd * 20 else maxIter.toNat) = M at *
  refine query_terminates e g nearest tight query tol maxIter mem hn fuel ?_ (by rw [hM]; omega)
  obtain ⟨r, x, tolerance, mem', objective, hb, hp, hg, hr⟩ := hs
  obtain ⟨k, hk, ha⟩ := Slsqp.slsqp_stops r hb (5 * M) x tolerance mem' objective (fun k => by rw [hg, hp])
  refine ⟨k, by omega, ?_⟩
  rw [hr]
  unfold Slsqp.Spec.Asks at ha
  push Not at ha
  exact ha

/-- C131: the points of the calls lie inside of the bounds of the routine as long as it asks for evaluations. -/
theorem slsqp_points_inside (r : Slsqp.Env K) (hb : Slsqp.Box r) (x : List K) (tolerance : K) (M : ℕ) (mem : Slsqp.State K) (objective : ℕ → K × List K)
    (hg : ∀ k, (objective k).2.length = r.xl.length) (e : Env K pd d) (hp : r.xl.length = pd)
    (he : ∀ k, e.slsqp k = (fun i : Fin pd => (Slsqp.run r objective (Slsqp.setup x tolerance M mem) k).x.getD i 0, (Slsqp.run r objective (Slsqp.setup x tolerance M mem) k).mode))
    (k : ℕ) (hk : ∀ j < k, (e.slsqp j).2 = 1 ∨ (e.slsqp j).2 = -1) (i : Fin pd) :
    r.xl.getD i 0 ≤ (e.slsqp k).1 i ∧ (e.slsqp k).1 i ≤ r.xu.getD i 0 := by
  obtain ⟨h, _⟩ := Slsqp.slsqp_inside r hb M x tolerance mem objective hg k fun j hj => by
    have := hk j hj
    rw [he] at this
    exact this
  rw [he]
  exact h.2 i (by rw [hp]; exact i.2)

/-- the hypotheses of `query_terminates_slsqp` are met by a query whose calls of `slsqp` are those of the routine -/
example : Spec.FromRoutine { kink with slsqp := fun k => (fun i : Fin 1 => (Slsqp.run Slsqp.line1 Slsqp.parabola (Slsqp.setup [1] (1 / 1000) 5 Slsqp.mem1) k).x.getD i 0,
    (Slsqp.run Slsqp.line1 Slsqp.parabola (Slsqp.setup [1] (1 / 1000) 5 Slsqp.mem1) k).mode) } (5 * if (1 : ℤ) < 0 then 1 * 20 else (1 : ℤ).toNat) ∧
    60 * (if (1 : ℤ) < 0 then 1 * 20 else (1 : ℤ).toNat) + 17 < 78 :=
  ⟨⟨Slsqp.line1, [1], 1 / 1000, Slsqp.mem1, Slsqp.parabola, ⟨rfl, by intro i hi; have : i = 0 := by simpa [Slsqp.line1] using hi
                                                                     subst this; decide, by norm_num [Slsqp.line1]⟩, rfl,
    fun k => by rcases k with _ | _ | _ | _ | k <;> rfl, fun _ => rfl⟩, by decide⟩

end Splinepy.Proximity
