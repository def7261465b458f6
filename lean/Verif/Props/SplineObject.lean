import Verif.Props.Construct

/-!
C21: properties read back are the ones set last. C22: derived data is never stale. C62: knots assigned through `spline.knot_vectors` reach the spline.
-/
set_option linter.unusedSectionVars false
set_option linter.unusedSimpArgs false
namespace Splinepy

namespace Spec
open SplineCore
variable {K : Type}

/-- a plain record of the properties, the state a user has in mind -/
def recordStep (r : Props K) : Op K → Props K
  | .degrees ds => { r with degrees := some ds }
  | .kvs l => { r with kvs := some l }
  | .cps m => { r with cps := some m }
  | .ws w => { r with ws := some w }
  | .clear => {}
  | .readKvs => r
  | .readCps => r
  | .readMultiIndex => r
  | .modify c => ⟨some c.degrees, c.kvs, some c.cps, c.ws⟩
  | .editKvs l => { r with kvs := some l }

end Spec

namespace SplineCore
variable {K : Type} [Field K] [LinearOrder K] [IsStrictOrderedRing K]

/-- operations a class offers: only properties it takes; `modify` keeps the kind of the spline; no in-place changes of knots (these are the subject of
`edit_reaches_spline_partial`) -/
def Offered (cls : Cls) : Op K → Prop
  | .kvs _ => cls.takesKvs = true
  | .ws _ => cls.takesWs = true
  | .editKvs _ => False
  | .modify c => (cls.requiresKvs = true → c.kvs.isSome) ∧ (cls.requiresWs = true → c.ws.isSome) ∧
      (cls.takesKvs = false → c.kvs = none) ∧ (cls.takesWs = false → c.ws = none) ∧
      (∀ l, c.kvs = some l → l.length = c.degrees.length)
  | _ => True

def IsModify : Op K → Prop
  | .modify _ => True
  | _ => False

/-- invariant tying the object to the record -/
structure Inv (cls : Cls) (s : State K) (r : Props K) : Prop where
  takes_kvs : cls.takesKvs = false → r.kvs = none
  takes_ws : cls.takesWs = false → r.ws = none
  lens : ∀ l ds, r.kvs = some l → r.degrees = some ds → l.length = ds.length
  degrees : s.data.degrees = r.degrees ∨ (s.data.degrees = none ∧ s.cur.isSome)
  kvs : s.data.kvs.bind (·.value s.heap) = r.kvs ∨ (s.data.kvs = none ∧ s.cur.isSome)
  kvs_some : ∀ k, s.data.kvs = some k → (k.value s.heap).isSome
  cps : s.data.cps = r.cps ∨ (s.data.cps = none ∧ s.cur.isSome)
  ws : s.data.ws = r.ws ∨ (s.data.ws = none ∧ s.cur.isSome)
  nocore : s.cur = none → ¬ Given cls r
  core : ∀ i, s.cur = some i → ∃ c, s.heap[i]? = some c ∧ Given cls r ∧ r.degrees = some c.degrees ∧ r.kvs = c.kvs ∧ r.cps = some c.cps ∧ r.ws = c.ws
  coupled : r.ws.isSome → (s.data.cps = r.cps ∧ s.data.ws = r.ws)

theorem getDegrees_eff (s : State K) (i : ℕ) (c : Core K) (h1 : s.cur = some i) (h2 : s.heap[i]? = some c) :
    getDegrees s = ({ s with data := { s.data with degrees := some (s.data.degrees.getD c.degrees) } }, some (s.data.degrees.getD c.degrees)) := by
  have hc : s.core = some c := by simp [State.core, h1, h2]
  obtain ⟨⟨d, k, m, w, mi⟩, heap, cur⟩ := s
  simp only [getDegrees, hc]
  cases d <;> rfl

theorem getKvs_eff (s : State K) (i : ℕ) (c : Core K) (h1 : s.cur = some i) (h2 : s.heap[i]? = some c)
    (hk : s.data.kvs.bind (·.value s.heap) = c.kvs ∨ s.data.kvs = none) (hs : ∀ k, s.data.kvs = some k → (k.value s.heap).isSome) :
    ∃ k, getKvs s = ({ s with data := { s.data with kvs := k } }, c.kvs) ∧ k.bind (·.value s.heap) = c.kvs ∧
      (∀ x, k = some x → (x.value s.heap).isSome) := by
  have hc : s.core = some c := by simp [State.core, h1, h2]
  have hsp : (KvData.space i : KvData K).value s.heap = c.kvs := by simp [KvData.value, h2]
  obtain ⟨⟨d, k, m, w, mi⟩, heap, cur⟩ := s
  simp only at *
  subst h1
  simp only [getKvs, hc]
  rcases hck : c.kvs with _ | l
  · refine ⟨k, rfl, ?_, hs⟩
    rcases hk with hk | hk
    · rw [hk, hck]
    · rw [hk]; rfl
  · rcases k with _ | k
    · exact ⟨some (.space i), rfl, by rw [← hck, ← hsp]; rfl, by rintro _ ⟨⟩; rw [hsp, hck]; rfl⟩
    · rcases k with l' | j
      · exact ⟨some (.space i), rfl, by rw [← hck, ← hsp]; rfl, by rintro _ ⟨⟩; rw [hsp, hck]; rfl⟩
      · rcases hk with hk | hk
        · have hk' : (KvData.space j : KvData K).value heap = some l := by rw [← hck, ← hk]; rfl
          exact ⟨some (.space j), by simp [hk'], by simpa using hk', by rintro _ ⟨⟩; rw [hk']; rfl⟩
        · cases hk

theorem prepare_same (s : State K) (h : ∀ c, s.core = some c → s.data.cps ≠ none ∧ (c.ws.isSome → s.data.ws ≠ none)) : prepare s = s := by
  unfold prepare
  rcases hc : s.core with _ | c
  · rfl
  · obtain ⟨h1, h2⟩ := h c hc
    simp only
    rw [if_neg]
    rintro (h | ⟨h, h'⟩)
    · exact h1 h
    · exact h2 h h'

theorem prepare_fill (s : State K) (i : ℕ) (c : Core K) (h1 : s.cur = some i) (h2 : s.heap[i]? = some c) (hp : s.data.cps = none) (hw : c.ws = none) :
    prepare s = { s with data := { s.data with cps := some c.cps } } := by
  have hc : s.core = some c := by simp [State.core, h1, h2]
  unfold prepare
  rw [hc]
  simp [hp, hw]

theorem newCore_props (maxDim : ℕ) (p : Props K) (c : Core K) (h : newCore maxDim p = .created c)
    (hl : ∀ l ds, p.kvs = some l → p.degrees = some ds → l.length = ds.length) :
    p.degrees = some c.degrees ∧ p.kvs = c.kvs ∧ p.cps = some c.cps ∧ p.ws = c.ws := by
  obtain ⟨d, k, m, w⟩ := p
  rcases d with _ | d
  · rw [newCore_skipped _ _ (Or.inl rfl)] at h; cases h
  rcases m with _ | m
  · rw [newCore_skipped _ _ (Or.inr rfl)] at h; cases h
  obtain ⟨_, _, _, rfl⟩ := (newCore_created_iff maxDim d m k w c (fun l hl' => hl l d hl' rfl)).1 h
  exact ⟨rfl, rfl, rfl, rfl⟩

theorem value_append (heap : List (Core K)) (c : Core K) (k : KvData K) (h : (k.value heap).isSome) : k.value (heap ++ [c]) = k.value heap := by
  cases k with
  | plain l => rfl
  | space j =>
    simp only [KvData.value] at *
    rcases hj : heap[j]? with _ | x
    · rw [hj] at h; cases h
    · obtain ⟨hlt, _⟩ := List.getElem?_eq_some_iff.1 hj
      rw [List.getElem?_append_left hlt, hj]

/-- once the saved data agrees with the record, the attempt to make a new core restores the invariant -/
theorem pyNewCore_inv (maxDim : ℕ) (cls : Cls) (s s' : State K) (r : Props K)
    (h1 : s.data.degrees = r.degrees) (h2 : s.data.kvs.bind (·.value s.heap) = r.kvs) (h3 : s.data.cps = r.cps) (h4 : s.data.ws = r.ws)
    (hs : ∀ k, s.data.kvs = some k → (k.value s.heap).isSome)
    (tk : cls.takesKvs = false → r.kvs = none) (tw : cls.takesWs = false → r.ws = none)
    (lens : ∀ l ds, r.kvs = some l → r.degrees = some ds → l.length = ds.length)
    (hg : s.cur = none ∨ Given cls r) (h : pyNewCore maxDim cls s = ⟨s', false⟩) : Inv cls s' r := by
  by_cases hG : Given cls r
  · rw [pyNewCore_complete maxDim cls s r hG h1 h2 h3 h4] at h
    rcases hn : newCore maxDim r with _ | _ | c
    · exfalso
      obtain ⟨ds, hds⟩ := Option.isSome_iff_exists.1 hG.1
      obtain ⟨m, hm⟩ := Option.isSome_iff_exists.1 hG.2.1
      simp only [newCore, hds, hm] at hn
      repeat' split at hn
      all_goals cases hn
    · rw [hn] at h; cases h
    · rw [hn] at h
      simp only [takeCore, Res.mk.injEq, and_true] at h
      obtain ⟨p1, p2, p3, p4⟩ := newCore_props maxDim r c hn lens
      subst h
      refine ⟨tk, tw, lens, Or.inl h1, Or.inl ?_, ?_, Or.inl h3, Or.inl h4, by simp, ?_, fun _ => ⟨h3, h4⟩⟩
      · rw [← h2]
        rcases hk : s.data.kvs with _ | k
        · rfl
        · exact value_append _ _ _ (hs k hk)
      · intro k hk
        have := hs k hk
        rw [value_append _ _ _ this]; exact this
      · rintro i ⟨⟩
        exact ⟨c, by simp, hG, p1, p2, p3, p4⟩
  · have hcur : s.cur = none := hg.resolve_right hG
    have hinc : s.data.degrees = none ∨ s.data.cps = none ∨ (cls.requiresKvs = true ∧ s.data.kvs = none) ∨ (cls.requiresWs = true ∧ s.data.ws = none) := by
      by_contra hcon
      push Not at hcon
      obtain ⟨c1, c2, c3, c4⟩ := hcon
      apply hG
      refine ⟨?_, ?_, fun hr => ?_, fun hr => ?_, tk, tw⟩
      · rw [← h1]; exact Option.isSome_iff_ne_none.2 c1
      · rw [← h3]; exact Option.isSome_iff_ne_none.2 c2
      · obtain ⟨k, hk⟩ := Option.ne_none_iff_exists'.1 (c3 hr)
        rw [← h2, hk]; exact hs k hk
      · rw [← h4]; exact Option.isSome_iff_ne_none.2 (c4 hr)
    rw [pyNewCore_incomplete maxDim cls s hinc] at h
    simp only [Res.mk.injEq, and_true] at h
    subst h
    exact ⟨tk, tw, lens, Or.inl h1, Or.inl h2, hs, Or.inl h3, Or.inl h4, fun _ => hG, by simp [hcur], fun _ => ⟨h3, h4⟩⟩

/-- reading the knot vectors keeps the invariant and returns the recorded ones -/
theorem getKvs_inv (cls : Cls) (s : State K) (r : Props K) (h : Inv cls s r) :
    ∃ k, getKvs s = ({ s with data := { s.data with kvs := k } }, r.kvs) ∧ k.bind (·.value s.heap) = r.kvs ∧
      (∀ x, k = some x → (x.value s.heap).isSome) := by
  obtain hc | ⟨i, hc⟩ := Option.eq_none_or_eq_some s.cur
  · rw [getKvs_nocore s hc]
    have hk := h.kvs.resolve_right (by simp [hc])
    exact ⟨s.data.kvs, by rw [hk], hk, h.kvs_some⟩
  · obtain ⟨c, h2, -, -, hrk, -⟩ := h.core i hc
    rw [hrk]
    refine getKvs_eff s i c hc h2 ?_ h.kvs_some
    rcases h.kvs with hk | hk
    · exact Or.inl (hk.trans hrk)
    · exact Or.inr hk.1

theorem getDegrees_inv (cls : Cls) (s : State K) (r : Props K) (h : Inv cls s r) :
    getDegrees s = ({ s with data := { s.data with degrees := r.degrees } }, r.degrees) := by
  obtain hc | ⟨i, hc⟩ := Option.eq_none_or_eq_some s.cur
  · rw [getDegrees_nocore s hc]
    have hk := h.degrees.resolve_right (by simp [hc])
    rw [← hk]
  · obtain ⟨c, h2, -, hrd, -⟩ := h.core i hc
    rw [getDegrees_eff s i c hc h2, hrd]
    rcases h.degrees with hk | hk
    · rw [hk, hrd]; rfl
    · rw [hk.1]; rfl

/-- reading control points or weights keeps the invariant -/
theorem prepare_inv (cls : Cls) (s : State K) (r : Props K) (h : Inv cls s r) :
    prepare s = { s with data := { s.data with cps := r.cps } } ∧ s.data.ws = r.ws := by
  have hws : s.data.ws = r.ws := by
    rcases h.ws with hw | hw
    · exact hw
    · by_cases hr : r.ws.isSome
      · exact (h.coupled hr).2
      · rw [hw.1, Option.not_isSome_iff_eq_none.1 hr]
  refine ⟨?_, hws⟩
  obtain hc | ⟨i, hc⟩ := Option.eq_none_or_eq_some s.cur
  · rw [prepare_nocore s hc, ← h.cps.resolve_right (by simp [hc])]
  · obtain ⟨c, h2, -, -, -, hrc, hrw⟩ := h.core i hc
    rcases h.cps with hp | hp
    · rw [← hp, prepare_same]
      intro c' hc'
      have : c' = c := by
        simp only [State.core, hc, Option.bind_some, h2, Option.some.injEq] at hc'
        exact hc'.symm
      subst this
      refine ⟨by rw [hp, hrc]; simp, fun hsome => ?_⟩
      rw [hws, hrw]; exact Option.isSome_iff_ne_none.1 hsome
    · rw [prepare_fill s i c hc h2 hp.1, hrc]
      by_contra hne
      have := (h.coupled (by rw [hrw]; exact Option.isSome_iff_ne_none.2 hne)).1
      rw [hp.1, hrc] at this; cases this

/-- the getters called before a new core is made fill in what is missing and keep what was just set -/
theorem safeNewCore_inv (maxDim : ℕ) (cls : Cls) (x : Prop') (s s0 s' : State K) (r r' : Props K) (h : Inv cls s r)
    (hheap : s0.heap = s.heap) (hcur : s0.cur = s.cur)
    (kd : if x = .degrees then s0.data.degrees = r'.degrees else (s0.data.degrees = s.data.degrees ∧ r'.degrees = r.degrees))
    (kk : if x = .kvs then (s0.data.kvs = r'.kvs.map .plain) else
      (r'.kvs = r.kvs ∧ (s0.data.kvs.bind (·.value s.heap) = r.kvs ∨ (s0.data.kvs = none ∧ s.cur.isSome)) ∧
        ∀ k, s0.data.kvs = some k → (k.value s.heap).isSome))
    (kc : if x = .cps then s0.data.cps = r'.cps ∧ r'.cps ≠ none else (s0.data.cps = s.data.cps ∧ r'.cps = r.cps))
    (kw : if x = .ws then s0.data.ws = r'.ws ∧ r'.ws ≠ none else (s0.data.ws = s.data.ws ∧ r'.ws = r.ws))
    (tk : cls.takesKvs = false → r'.kvs = none) (tw : cls.takesWs = false → r'.ws = none)
    (lens : ∀ l ds, r'.kvs = some l → r'.degrees = some ds → l.length = ds.length)
    (hg : s.cur = none ∨ Given cls r') (hrun : safeNewCore maxDim cls x s0 = ⟨s', false⟩) : Inv cls s' r' := by
  obtain hc | ⟨i, hc⟩ := Option.eq_none_or_eq_some s.cur
  · rw [safeNewCore_nocore _ _ _ _ (by rw [hcur, hc])] at hrun
    have e1 := h.degrees.resolve_right (by simp [hc])
    have e2 := h.kvs.resolve_right (by simp [hc])
    have e3 := h.cps.resolve_right (by simp [hc])
    have e4 := h.ws.resolve_right (by simp [hc])
    refine pyNewCore_inv maxDim cls s0 s' r' ?_ ?_ ?_ ?_ ?_ tk tw lens (Or.inl (by rw [hcur, hc])) hrun
    · split_ifs at kd
      · exact kd
      · rw [kd.1, kd.2, e1]
    · split_ifs at kk
      · rw [kk]; exact bind_value_plain _ _
      · rw [hheap, kk.1]
        exact kk.2.1.resolve_right (by simp [hc])
    · split_ifs at kc
      · exact kc.1
      · rw [kc.1, kc.2, e3]
    · split_ifs at kw
      · exact kw.1
      · rw [kw.1, kw.2, e4]
    · split_ifs at kk
      · rw [kk]; intro k hk
        obtain ⟨l, hl, rfl⟩ := Option.map_eq_some_iff.1 hk
        rfl
      · rw [hheap]; exact kk.2.2
  · obtain ⟨c, h2, hG, hrd, hrk, hrc, hrw⟩ := h.core i hc
    have hc0 : s0.cur = some i := by rw [hcur, hc]
    have h20 : s0.heap[i]? = some c := by rw [hheap, h2]
    have hws : s.data.ws = r.ws := (prepare_inv cls s r h).2
    -- degrees
    obtain ⟨s1, hs1, d1, k1, c1, w1, b1, u1⟩ : ∃ s1, (if x = .degrees then s0 else (getDegrees s0).1) = s1 ∧ s1.data.degrees = r'.degrees ∧
        s1.data.kvs = s0.data.kvs ∧ s1.data.cps = s0.data.cps ∧ s1.data.ws = s0.data.ws ∧ s1.heap = s0.heap ∧ s1.cur = s0.cur := by
      refine ⟨_, rfl, ?_⟩
      split_ifs with hx
      · rw [if_pos hx] at kd
        exact ⟨kd, rfl, rfl, rfl, rfl, rfl⟩
      · rw [if_neg hx] at kd
        rw [getDegrees_eff s0 i c hc0 h20]
        refine ⟨?_, rfl, rfl, rfl, rfl, rfl⟩
        simp only
        rw [kd.1, kd.2, hrd]
        rcases h.degrees with hd | hd
        · rw [hd, hrd]; rfl
        · rw [hd.1]; rfl
    -- knot vectors
    obtain ⟨s2, hs2, d2, k2, ks2, c2, w2, b2, u2⟩ : ∃ s2, (if x = .kvs ∨ cls.takesKvs = false then s1 else (getKvs s1).1) = s2 ∧
        s2.data.degrees = r'.degrees ∧ s2.data.kvs.bind (·.value s.heap) = r'.kvs ∧ (∀ k, s2.data.kvs = some k → (k.value s.heap).isSome) ∧
        s2.data.cps = s0.data.cps ∧ s2.data.ws = s0.data.ws ∧ s2.heap = s0.heap ∧ s2.cur = s0.cur := by
      refine ⟨_, rfl, ?_⟩
      by_cases hx : x = .kvs
      · rw [if_pos (Or.inl hx)]
        rw [if_pos hx] at kk
        refine ⟨d1, by rw [k1, kk]; exact bind_value_plain _ _, ?_, c1, w1, b1, u1⟩
        rw [k1, kk]; intro k hk
        obtain ⟨l, hl, rfl⟩ := Option.map_eq_some_iff.1 hk
        rfl
      · rw [if_neg hx] at kk
        obtain ⟨kr, kk1, kk2⟩ := kk
        by_cases ht : cls.takesKvs = false
        · rw [if_pos (Or.inr ht)]
          refine ⟨d1, ?_, by rw [k1]; exact kk2, c1, w1, b1, u1⟩
          rw [k1, kr]
          rcases kk1 with hk | hk
          · exact hk
          · rw [hk.1, ← kr, tk ht]; rfl
        · rw [if_neg (by simp [hx, ht])]
          obtain ⟨k, e1, e2, e3⟩ := getKvs_eff s1 i c (by rw [u1, hc0]) (by rw [b1, h20])
            (by
              rw [k1, b1, hheap]
              rcases kk1 with hk | hk
              · exact Or.inl (hk.trans hrk)
              · exact Or.inr hk.1)
            (by rw [k1, b1, hheap]; exact kk2)
          rw [e1]
          refine ⟨d1, ?_, ?_, c1, w1, b1, u1⟩
          · rw [b1, hheap] at e2
            rw [kr, hrk]; exact e2
          · rw [b1, hheap] at e3; exact e3
    -- control points and weights
    have hprep : ∀ t : State K, t.heap = s0.heap → t.cur = s0.cur → t.data.ws = r'.ws →
        (t.data.cps = r'.cps ∨ (t.data.cps = s0.data.cps ∧ x ≠ .cps)) →
        (prepare t).data.degrees = t.data.degrees ∧ (prepare t).data.kvs = t.data.kvs ∧ (prepare t).data.cps = r'.cps ∧ (prepare t).data.ws = r'.ws ∧
          (prepare t).heap = t.heap ∧ (prepare t).cur = t.cur := by
      intro t t1 t2 t3 t4
      have hcps : t.data.cps = r'.cps ∨ (t.data.cps = none ∧ c.ws = none ∧ r'.cps = some c.cps) := by
        rcases t4 with t4 | ⟨t4, hx⟩
        · exact Or.inl t4
        · rw [if_neg hx] at kc
          rcases h.cps with hp | hp
          · left; rw [t4, kc.1, kc.2, hp]
          · right
            refine ⟨by rw [t4, kc.1, hp.1], ?_, by rw [kc.2, hrc]⟩
            by_contra hne
            have := (h.coupled (by rw [hrw]; exact Option.isSome_iff_ne_none.2 hne)).1
            rw [hp.1, hrc] at this; cases this
      have hr'c : r'.cps ≠ none := by
        by_cases hx : x = .cps
        · rw [if_pos hx] at kc; exact kc.2
        · rw [if_neg hx] at kc; rw [kc.2, hrc]; simp
      rcases hcps with hcps | ⟨p1, p2, p3⟩
      · rw [prepare_same t]
        · exact ⟨rfl, rfl, hcps, t3, rfl, rfl⟩
        · intro c' hc'
          have : c' = c := by
            simp only [State.core, t2, hc0, Option.bind_some, t1, h20, Option.some.injEq] at hc'
            exact hc'.symm
          subst this
          refine ⟨by rw [hcps]; exact hr'c, fun hsome => ?_⟩
          rw [t3]
          by_cases hx : x = .ws
          · rw [if_pos hx] at kw; exact kw.2
          · rw [if_neg hx] at kw; rw [kw.2, hrw]; exact Option.isSome_iff_ne_none.1 hsome
      · rw [prepare_fill t i c (by rw [t2, hc0]) (by rw [t1, h20]) p1 p2]
        exact ⟨rfl, rfl, p3.symm, t3, rfl, rfl⟩
    have hw0 : s0.data.ws = r'.ws := by
      by_cases hx : x = .ws
      · rw [if_pos hx] at kw; exact kw.1
      · rw [if_neg hx] at kw; rw [kw.1, kw.2, hws]
    obtain ⟨s3, hs3, d3, k3, c3, w3, b3, u3⟩ : ∃ s3, (if x = .cps then s2 else (getCps s2).1) = s3 ∧
        s3.data.degrees = s2.data.degrees ∧ s3.data.kvs = s2.data.kvs ∧ s3.data.cps = r'.cps ∧ s3.data.ws = r'.ws ∧
        s3.heap = s2.heap ∧ s3.cur = s2.cur := by
      refine ⟨_, rfl, ?_⟩
      split_ifs with hx
      · rw [if_pos hx] at kc
        exact ⟨rfl, rfl, by rw [c2, kc.1], by rw [w2, hw0], rfl, rfl⟩
      · exact hprep s2 b2 u2 (by rw [w2, hw0]) (Or.inr ⟨c2, hx⟩)
    obtain ⟨s4, hs4, d4, k4, c4, w4, b4, u4⟩ : ∃ s4, (if x = .ws ∨ cls.takesWs = false then s3 else (getWs s3).1) = s4 ∧
        s4.data.degrees = s2.data.degrees ∧ s4.data.kvs = s2.data.kvs ∧ s4.data.cps = r'.cps ∧ s4.data.ws = r'.ws ∧
        s4.heap = s2.heap ∧ s4.cur = s2.cur := by
      refine ⟨_, rfl, ?_⟩
      split_ifs with hx
      · exact ⟨d3, k3, c3, w3, b3, u3⟩
      · have := hprep s3 (by rw [b3, b2]) (by rw [u3, u2]) w3 (Or.inl c3)
        rw [d3, k3, b3, u3] at this
        exact this
    simp only [safeNewCore, hs1, hs2, hs3, hs4] at hrun
    have hb : s4.heap = s.heap := by rw [b4, b2, hheap]
    refine pyNewCore_inv maxDim cls s4 s' r' (by rw [d4, d2]) (by rw [k4, hb, k2]) c4 w4 (by rw [k4, hb]; exact ks2) tk tw lens
      (Or.inr (hg.resolve_left (by simp [hc]))) hrun

theorem given_mono (cls : Cls) (r r' : Props K) (h : Given cls r) (h1 : r.degrees.isSome → r'.degrees.isSome) (h2 : r.cps.isSome → r'.cps.isSome)
    (h3 : r.kvs.isSome → r'.kvs.isSome) (h4 : r.ws.isSome → r'.ws.isSome) (tk : cls.takesKvs = false → r'.kvs = none)
    (tw : cls.takesWs = false → r'.ws = none) : Given cls r' :=
  ⟨h1 h.1, h2 h.2.1, fun x => h3 (h.2.2.1 x), fun x => h4 (h.2.2.2.1 x), tk, tw⟩

theorem given_of_core (cls : Cls) (s : State K) (r : Props K) (h : Inv cls s r) : s.cur = none ∨ Given cls r := by
  obtain hc | ⟨i, hc⟩ := Option.eq_none_or_eq_some s.cur
  · exact Or.inl hc
  · obtain ⟨c, _, hG, _⟩ := h.core i hc
    exact Or.inr hG

/-- every call that does not raise keeps object and record together -/
theorem step_inv (maxDim : ℕ) (cls : Cls) (s s' : State K) (r : Props K) (op : Op K) (h : Inv cls s r) (ho : Offered cls op)
    (hm : IsModify op → cls.takesWs = false) (hrun : step maxDim cls s op = ⟨s', false⟩) : Inv cls s' (Spec.recordStep r op) := by
  cases op with
  | degrees ds =>
    simp only [step, setDegrees] at hrun
    obtain ⟨k, e1, e2, e3⟩ := getKvs_inv cls s r h
    rw [e1] at hrun
    simp only at hrun
    split_ifs at hrun with hlen
    · cases hrun
    · refine safeNewCore_inv maxDim cls .degrees s _ s' r _ h ?_ ?_ ?_ ?_ ?_ ?_ h.takes_kvs h.takes_ws ?_ ?_ hrun
      · rfl
      · rfl
      · simp [Spec.recordStep]
      · simp only [reduceCtorEq, if_false]
        exact ⟨rfl, Or.inl e2, e3⟩
      · simp [Spec.recordStep]
      · simp [Spec.recordStep]
      · intro l ds' hl hd
        simp only [Spec.recordStep, Option.some.injEq] at hl hd
        subst hd
        rw [hl] at hlen
        simpa [mismatch] using hlen
      · refine (given_of_core cls s r h).imp id fun g => given_mono cls r _ g ?_ ?_ ?_ ?_ h.takes_kvs h.takes_ws <;> simp [Spec.recordStep]
  | kvs l =>
    simp only [Offered] at ho
    simp only [step, setKvs] at hrun
    rw [getDegrees_inv cls s r h] at hrun
    simp only at hrun
    split_ifs at hrun with hlen
    · cases hrun
    · have hI : Inv cls { s with data := { s.data with degrees := r.degrees } } r :=
        ⟨h.takes_kvs, h.takes_ws, h.lens, Or.inl rfl, h.kvs, h.kvs_some, h.cps, h.ws, h.nocore, h.core, h.coupled⟩
      have tk : cls.takesKvs = false → (Spec.recordStep r (.kvs l)).kvs = none := by simp [ho]
      refine safeNewCore_inv maxDim cls .kvs _ _ s' r _ hI ?_ ?_ ?_ ?_ ?_ ?_ tk h.takes_ws ?_ ?_ hrun
      · rfl
      · rfl
      · simp [Spec.recordStep]
      · simp [Spec.recordStep]
      · simp [Spec.recordStep]
      · simp [Spec.recordStep]
      · intro l' ds' hl hd
        simp only [Spec.recordStep, Option.some.injEq] at hl hd
        subst hl
        rw [hd] at hlen
        exact (by simpa [mismatch] using hlen : ds'.length = l.length).symm
      · refine (given_of_core cls s r h).imp id fun g => given_mono cls r _ g ?_ ?_ ?_ ?_ tk h.takes_ws <;> simp [Spec.recordStep]
  | cps m =>
    simp only [step, setCps] at hrun
    split_ifs at hrun with hlen
    · cases hrun
    · refine safeNewCore_inv maxDim cls .cps s _ s' r _ h ?_ ?_ ?_ ?_ ?_ ?_ h.takes_kvs h.takes_ws h.lens ?_ hrun
      · rfl
      · rfl
      · simp [Spec.recordStep]
      · simp only [reduceCtorEq, if_false]
        exact ⟨rfl, h.kvs, h.kvs_some⟩
      · simp [Spec.recordStep]
      · simp [Spec.recordStep]
      · refine (given_of_core cls s r h).imp id fun g => given_mono cls r _ g ?_ ?_ ?_ ?_ h.takes_kvs h.takes_ws <;> simp [Spec.recordStep]
  | ws w =>
    simp only [Offered] at ho
    simp only [step, setWs] at hrun
    have tw : cls.takesWs = false → (Spec.recordStep r (.ws w)).ws = none := by simp [ho]
    split_ifs at hrun with hlen
    · cases hrun
    · refine safeNewCore_inv maxDim cls .ws s _ s' r _ h ?_ ?_ ?_ ?_ ?_ ?_ h.takes_kvs tw h.lens ?_ hrun
      · rfl
      · rfl
      · simp [Spec.recordStep]
      · simp only [reduceCtorEq, if_false]
        exact ⟨rfl, h.kvs, h.kvs_some⟩
      · simp [Spec.recordStep]
      · simp [Spec.recordStep]
      · refine (given_of_core cls s r h).imp id fun g => given_mono cls r _ g ?_ ?_ ?_ ?_ h.takes_kvs tw <;> simp [Spec.recordStep]
  | clear =>
    simp only [step, Res.mk.injEq, and_true] at hrun
    subst hrun
    exact ⟨fun _ => rfl, fun _ => rfl, by simp [Spec.recordStep], Or.inl rfl, Or.inl rfl, by simp, Or.inl rfl, Or.inl rfl,
      fun _ g => by simpa [Spec.recordStep] using g.1, by simp, by simp [Spec.recordStep]⟩
  | readKvs =>
    simp only [step, Res.mk.injEq, and_true] at hrun
    obtain ⟨k, e1, e2, e3⟩ := getKvs_inv cls s r h
    rw [e1] at hrun
    subst hrun
    exact ⟨h.takes_kvs, h.takes_ws, h.lens, h.degrees, Or.inl e2, e3, h.cps, h.ws, h.nocore, h.core, h.coupled⟩
  | readCps =>
    simp only [step, getCps, Res.mk.injEq, and_true] at hrun
    obtain ⟨e1, e2⟩ := prepare_inv cls s r h
    rw [e1] at hrun
    subst hrun
    exact ⟨h.takes_kvs, h.takes_ws, h.lens, h.degrees, h.kvs, h.kvs_some, Or.inl rfl, Or.inl e2, h.nocore, h.core, fun _ => ⟨rfl, e2⟩⟩
  | readMultiIndex =>
    simp only [step, getMultiIndex] at hrun
    have hI : ∀ m, Inv cls { s with data := { s.data with multiIndex := m } } r := fun m =>
      ⟨h.takes_kvs, h.takes_ws, h.lens, h.degrees, h.kvs, h.kvs_some, h.cps, h.ws, h.nocore, h.core, h.coupled⟩
    rcases hm : s.data.multiIndex with _ | m
    · rw [hm] at hrun
      simp only at hrun
      rcases hc : s.core with _ | c
      · rw [hc] at hrun; cases hrun
      · rw [hc] at hrun
        simp only [Option.map_some, Res.mk.injEq, and_true] at hrun
        subst hrun
        exact hI _
    · rw [hm] at hrun
      simp only [Res.mk.injEq, and_true] at hrun
      subst hrun
      exact h
  | modify c =>
    have hws := hm trivial
    simp only [step] at hrun
    obtain ⟨o1, o2, o3, o4, o5⟩ := ho
    obtain hc | ⟨i, hc⟩ := Option.eq_none_or_eq_some s.cur
    · rw [hc] at hrun; cases hrun
    · rw [hc] at hrun
      simp only [Res.mk.injEq, and_true] at hrun
      obtain ⟨c0, h2, -⟩ := h.core i hc
      obtain ⟨hlt, _⟩ := List.getElem?_eq_some_iff.1 h2
      subst hrun
      refine ⟨o3, o4, ?_, Or.inr ⟨rfl, rfl⟩, Or.inr ⟨rfl, rfl⟩, by simp, Or.inr ⟨rfl, rfl⟩, Or.inr ⟨rfl, rfl⟩, by simp, ?_, ?_⟩
      · intro l ds hl hd
        simp only [Spec.recordStep, Option.some.injEq] at hl hd
        subst hd
        exact o5 l hl
      · rintro j ⟨⟩
        exact ⟨c, by simp [hlt], ⟨rfl, rfl, o1, o2, o3, o4⟩, rfl, rfl, rfl, rfl⟩
      · intro hsome
        simp only [Spec.recordStep, o4 hws] at hsome
        cases hsome
  | editKvs l => exact ho.elim

theorem run_inv (maxDim : ℕ) (cls : Cls) (ops : List (Op K)) (s s' : State K) (r : Props K) (h : Inv cls s r) (ho : ∀ op ∈ ops, Offered cls op)
    (hm : cls.takesWs = false ∨ ∀ op ∈ ops, ¬ IsModify op) (hrun : run maxDim cls s ops = some s') : Inv cls s' (ops.foldl Spec.recordStep r) := by
  induction ops generalizing s r with
  | nil =>
    simp only [run, List.foldlM_nil] at hrun
    cases hrun
    exact h
  | cons op ops ih =>
    rcases hst : step maxDim cls s op with ⟨s1, b⟩
    cases b with
    | true => rw [run_cons_raised _ _ _ _ _ (by rw [hst])] at hrun; cases hrun
    | false =>
      rw [run_cons _ _ _ _ _ _ hst] at hrun
      refine ih s1 _ (step_inv maxDim cls s s1 r op h (ho op (by simp)) ?_ hst) (fun o h' => ho o (by simp [h'])) ?_ hrun
      · intro hi
        exact hm.resolve_right (fun hn => hn op (by simp) hi)
      · exact hm.imp id fun hn o h' => hn o (by simp [h'])

theorem inv_empty (cls : Cls) : Inv cls ({} : State K) {} :=
  ⟨fun _ => rfl, fun _ => rfl, by simp, Or.inl rfl, Or.inl rfl, by simp, Or.inl rfl, Or.inl rfl, fun _ g => by simpa using g.1, by simp, by simp⟩

/-- C21: after any sequence of assignments, resets, reads and (for polynomial classes) refinements that does not raise, every property reads as the value set last, the core exists
iff all properties the class requires are there, and it was made from exactly these values. Missing: rational splines after a refinement (`lost_assignment_violates`), and
sequences with a rejected assignment (`rejected_assignment_violates`). -/
theorem reads_latest_partial (maxDim : ℕ) (cls : Cls) (ops : List (Op K)) (s : State K) (ho : ∀ op ∈ ops, Offered cls op)
    (hm : cls.takesWs = false ∨ ∀ op ∈ ops, ¬ IsModify op) (hrun : run maxDim cls {} ops = some s) :
    let r := ops.foldl Spec.recordStep {}
    (getDegrees s).2 = r.degrees ∧ (getKvs s).2 = r.kvs ∧ (getCps s).2 = r.cps ∧ (getWs s).2 = r.ws ∧
      (s.core.isSome ↔ Given cls r) ∧
      ∀ c, s.core = some c → some c.degrees = r.degrees ∧ c.kvs = r.kvs ∧ some c.cps = r.cps ∧ c.ws = r.ws := by
  intro r
  have h : Inv cls s r := run_inv maxDim cls ops {} s {} (inv_empty cls) ho hm hrun
  obtain ⟨k, e1, e2, e3⟩ := getKvs_inv cls s r h
  obtain ⟨p1, p2⟩ := prepare_inv cls s r h
  refine ⟨by rw [getDegrees_inv cls s r h], by rw [e1], by rw [getCps, p1], by rw [getWs, p1]; exact p2, ?_, ?_⟩
  · obtain hc | ⟨i, hc⟩ := Option.eq_none_or_eq_some s.cur
    · have := h.nocore hc
      simp [State.core, hc, this]
    · obtain ⟨c, h2, hG, -⟩ := h.core i hc
      simp [State.core, hc, h2, hG]
  · intro c hc
    obtain hn | ⟨i, hn⟩ := Option.eq_none_or_eq_some s.cur
    · simp [State.core, hn] at hc
    · obtain ⟨c', h2, -, q1, q2, q3, q4⟩ := h.core i hn
      have : c' = c := by simpa [State.core, hn, h2] using hc
      subst this
      exact ⟨q1.symm, q2.symm, q3.symm, q4.symm⟩

/-! ### C22 -/

end SplineCore

namespace Spec
open SplineCore
variable {K : Type}

/-- no degrees or knot vectors are assigned between a read of the multi index and the next reset or refinement -/
def meshKept : Bool → List (Op K) → Bool
  | _, [] => true
  | read, .degrees _ :: ops => !read && meshKept read ops
  | read, .kvs _ :: ops => !read && meshKept read ops
  | _, .clear :: ops => meshKept false ops
  | _, .modify _ :: ops => meshKept false ops
  | _, .readMultiIndex :: ops => meshKept true ops
  | read, _ :: ops => meshKept read ops

end Spec

namespace SplineCore
variable {K : Type} [Field K] [LinearOrder K] [IsStrictOrderedRing K]

theorem getDegrees_mi (s : State K) : (getDegrees s).1.data.multiIndex = s.data.multiIndex := by
  unfold getDegrees
  repeat' split
  all_goals rfl

theorem getKvs_mi (s : State K) : (getKvs s).1.data.multiIndex = s.data.multiIndex := by
  unfold getKvs
  repeat' split
  all_goals rfl

theorem prepare_mi (s : State K) : (prepare s).data.multiIndex = s.data.multiIndex := by
  unfold prepare
  repeat' split
  all_goals rfl

theorem takeCore_mi (s : State K) (r : Created K) : (takeCore s r).state.data.multiIndex = s.data.multiIndex := by
  cases r <;> rfl

theorem pyNewCore_mi (maxDim : ℕ) (cls : Cls) (s : State K) : (pyNewCore maxDim cls s).state.data.multiIndex = s.data.multiIndex := by
  unfold pyNewCore
  dsimp only
  split
  · rfl
  · exact takeCore_mi s _

theorem safeNewCore_mi (maxDim : ℕ) (cls : Cls) (x : Prop') (s : State K) :
    (safeNewCore maxDim cls x s).state.data.multiIndex = s.data.multiIndex := by
  simp only [safeNewCore, pyNewCore_mi]
  have h1 : ∀ (b : Prop) [Decidable b] (t : State K), (if b then t else (getDegrees t).1).data.multiIndex = t.data.multiIndex := by
    intro b _ t; split_ifs
    · rfl
    · exact getDegrees_mi t
  have h2 : ∀ (b : Prop) [Decidable b] (t : State K), (if b then t else (getKvs t).1).data.multiIndex = t.data.multiIndex := by
    intro b _ t; split_ifs
    · rfl
    · exact getKvs_mi t
  have h3 : ∀ (b : Prop) [Decidable b] (t : State K), (if b then t else (getCps t).1).data.multiIndex = t.data.multiIndex := by
    intro b _ t; split_ifs
    · rfl
    · exact prepare_mi t
  have h4 : ∀ (b : Prop) [Decidable b] (t : State K), (if b then t else (getWs t).1).data.multiIndex = t.data.multiIndex := by
    intro b _ t; split_ifs
    · rfl
    · exact prepare_mi t
  rw [h4, h3, h2, h1]

/-- control mesh resolutions of a record -/
def recordResolutions (r : Props K) : Option (List Int) :=
  r.degrees.map (meshResolutions r.kvs)

theorem run_mi (maxDim : ℕ) (cls : Cls) (ops : List (Op K)) (s s' : State K) (r : Props K) (read : Bool) (h : Inv cls s r)
    (ho : ∀ op ∈ ops, Offered cls op)
    (hm : cls.takesWs = false ∨ ∀ op ∈ ops, ¬ IsModify op) (hmi : ∀ m, s.data.multiIndex = some m → read = true ∧ recordResolutions r = some m)
    (hk : Spec.meshKept read ops = true) (hrun : run maxDim cls s ops = some s') :
    ∀ m, s'.data.multiIndex = some m → recordResolutions (ops.foldl Spec.recordStep r) = some m := by
  induction ops generalizing s r read with
  | nil =>
    simp only [run, List.foldlM_nil] at hrun
    cases hrun
    exact fun m hm' => (hmi m hm').2
  | cons op ops ih =>
    rcases hst : step maxDim cls s op with ⟨s1, b⟩
    cases b with
    | true => rw [run_cons_raised _ _ _ _ _ (by rw [hst])] at hrun; cases hrun
    | false =>
      rw [run_cons _ _ _ _ _ _ hst] at hrun
      have hI := step_inv maxDim cls s s1 r op h (ho op (by simp)) (fun hi => hm.resolve_right (fun hn => hn op (by simp) hi)) hst
      have ho' : ∀ o ∈ ops, Offered cls o := fun o h' => ho o (by simp [h'])
      have hm' : cls.takesWs = false ∨ ∀ o ∈ ops, ¬ IsModify o := hm.imp id fun hn o h' => hn o (by simp [h'])
      cases op with
      | degrees ds =>
        simp only [Spec.meshKept, Bool.and_eq_true, Bool.not_eq_true'] at hk
        refine ih s1 _ read hI ho' hm' (fun m hmm => ?_) hk.2 hrun
        exfalso
        have : s1.data.multiIndex = s.data.multiIndex := by
          have : (step maxDim cls s (.degrees ds)).state.data.multiIndex = s.data.multiIndex := by
            simp only [step, setDegrees]
            split_ifs
            · exact getKvs_mi s
            · rw [safeNewCore_mi]; exact getKvs_mi s
          rw [hst] at this; exact this
        rw [this] at hmm
        have := (hmi m hmm).1
        rw [hk.1] at this; cases this
      | kvs l =>
        simp only [Spec.meshKept, Bool.and_eq_true, Bool.not_eq_true'] at hk
        refine ih s1 _ read hI ho' hm' (fun m hmm => ?_) hk.2 hrun
        exfalso
        have : s1.data.multiIndex = s.data.multiIndex := by
          have : (step maxDim cls s (.kvs l)).state.data.multiIndex = s.data.multiIndex := by
            simp only [step, setKvs]
            split_ifs
            · exact getDegrees_mi s
            · rw [safeNewCore_mi]; exact getDegrees_mi s
          rw [hst] at this; exact this
        rw [this] at hmm
        have := (hmi m hmm).1
        rw [hk.1] at this; cases this
      | cps m =>
        refine ih s1 _ read hI ho' hm' (fun m' hmm => ?_) hk hrun
        have : s1.data.multiIndex = s.data.multiIndex := by
          have : (step maxDim cls s (.cps m)).state.data.multiIndex = s.data.multiIndex := by
            simp only [step, setCps]
            split_ifs
            · rfl
            · rw [safeNewCore_mi]
          rw [hst] at this; exact this
        rw [this] at hmm
        exact hmi m' hmm
      | ws w =>
        refine ih s1 _ read hI ho' hm' (fun m' hmm => ?_) hk hrun
        have : s1.data.multiIndex = s.data.multiIndex := by
          have : (step maxDim cls s (.ws w)).state.data.multiIndex = s.data.multiIndex := by
            simp only [step, setWs]
            split_ifs
            · rfl
            · rw [safeNewCore_mi]
          rw [hst] at this; exact this
        rw [this] at hmm
        exact hmi m' hmm
      | clear =>
        refine ih s1 _ false hI ho' hm' (fun m' hmm => ?_) hk hrun
        simp only [step, Res.mk.injEq, and_true] at hst
        subst hst
        cases hmm
      | readKvs =>
        refine ih s1 _ read hI ho' hm' (fun m' hmm => ?_) hk hrun
        simp only [step, Res.mk.injEq, and_true] at hst
        subst hst
        rw [getKvs_mi] at hmm
        exact hmi m' hmm
      | readCps =>
        refine ih s1 _ read hI ho' hm' (fun m' hmm => ?_) hk hrun
        simp only [step, Res.mk.injEq, and_true] at hst
        subst hst
        rw [getCps, prepare_mi] at hmm
        exact hmi m' hmm
      | readMultiIndex =>
        refine ih s1 _ true hI ho' hm' (fun m' hmm => ⟨rfl, ?_⟩) hk hrun
        simp only [step, getMultiIndex] at hst
        rcases hmc : s.data.multiIndex with _ | m
        · rw [hmc] at hst
          simp only at hst
          obtain hc | ⟨i, hc⟩ := Option.eq_none_or_eq_some s.cur
          · simp [State.core, hc] at hst
          · obtain ⟨c, h2, -, q1, q2, -⟩ := h.core i hc
            simp only [State.core, hc, Option.bind_some, h2, Option.map_some, Res.mk.injEq, and_true] at hst
            subst hst
            simp only [Option.some.injEq] at hmm
            subst hmm
            simp only [Spec.recordStep, recordResolutions, q1, q2, Option.map_some, resolutions]
        · rw [hmc] at hst
          simp only [Res.mk.injEq, and_true] at hst
          subst hst
          exact (hmi m' hmm).2
      | modify c =>
        refine ih s1 _ false hI ho' hm' (fun m' hmm => ?_) hk hrun
        simp only [step] at hst
        obtain hc | ⟨i, hc⟩ := Option.eq_none_or_eq_some s.cur
        · rw [hc] at hst; cases hst
        · rw [hc] at hst
          simp only [Res.mk.injEq, and_true] at hst
          subst hst
          cases hmm
      | editKvs l => exact (ho (.editKvs l) (by simp)).elim

/-- C22: the multi index matches the control mesh of the current spline, whenever it can be read, after every history in which the degrees and knot vectors are not reassigned
between a read of the multi index and the next reset or refinement. Missing: these reassignments, see `stale_multi_index_violates`. -/
theorem multi_index_fresh_partial (maxDim : ℕ) (cls : Cls) (ops : List (Op K)) (s : State K) (c : Core K) (ho : ∀ op ∈ ops, Offered cls op)
    (hm : cls.takesWs = false ∨ ∀ op ∈ ops, ¬ IsModify op) (hk : Spec.meshKept false ops = true)
    (hrun : run maxDim cls {} ops = some s) (hc : s.core = some c) : (getMultiIndex s).map Prod.snd = some (resolutions c) := by
  have h : Inv cls s (ops.foldl Spec.recordStep {}) := run_inv maxDim cls ops {} s {} (inv_empty cls) ho hm hrun
  have hmi := run_mi maxDim cls ops {} s {} false (inv_empty cls) ho hm (by simp) hk hrun
  rcases hmc : s.data.multiIndex with _ | m
  · simp [getMultiIndex, hmc, hc]
  · simp only [getMultiIndex, hmc, Option.map_some, Option.some.injEq]
    have h1 := hmi m hmc
    obtain hn | ⟨i, hn⟩ := Option.eq_none_or_eq_some s.cur
    · simp [State.core, hn] at hc
    · obtain ⟨c', h2, -, q1, q2, -⟩ := h.core i hn
      have : c' = c := by simpa [State.core, hn, h2] using hc
      subst this
      simp only [recordResolutions, q1, q2, Option.map_some, Option.some.injEq] at h1
      rw [← h1, resolutions]

/-! ### C62: in-place assignment of knots -/

/-- Knots assigned through `spline.knot_vectors` reach the core if the saved knot vectors are not a parameter space object of another core. Missing: the general case, see
`stale_parameter_space_violates`. -/
theorem edit_reaches_spline_partial (maxDim : ℕ) (cls : Cls) (s : State K) (i : ℕ) (c : Core K) (l : List (List K)) (h1 : s.cur = some i) (h2 : s.heap[i]? = some c)
    (hk : c.kvs.isSome) (hs : ∀ j, s.data.kvs = some (.space j) → j = i) :
    (step maxDim cls s (.editKvs l)).raised = false ∧ (step maxDim cls s (.editKvs l)).state.core = some { c with kvs := some l } := by
  have hc : s.core = some c := by simp [State.core, h1, h2]
  obtain ⟨l0, hl0⟩ := Option.isSome_iff_exists.1 hk
  obtain ⟨hlt, _⟩ := List.getElem?_eq_some_iff.1 h2
  have hg : (getKvs s).1 = { s with data := { s.data with kvs := some (.space i) } } := by
    simp only [getKvs, hc, hl0]
    rcases hd : s.data.kvs with _ | k
    · simp [h1]
    · rcases k with l' | j
      · simp [h1]
      · have := hs j hd
        subst this
        obtain ⟨⟨d, k, m, w, mi⟩, heap, cur⟩ := s
        simp only at hd
        subst hd
        rfl
  simp only [step, hg, h2]
  simp [State.core, h1, hlt]

/-- in particular right after the construction of a spline, -/
theorem edit_after_construction (maxDim : ℕ) (cls : Cls) (ds : List Int) (cps : Mat K) (kvs l : List (List K)) (ws : Option (List K))
    (hg : Given cls ⟨some ds, some kvs, some cps, ws⟩) (s : State K) (hs : construct maxDim cls ⟨some ds, some kvs, some cps, ws⟩ = some s) :
    ∃ c, s.core = some c ∧ (step maxDim cls s (.editKvs l)).state.core = some { c with kvs := some l } := by
  obtain ⟨h1, h2, h3⟩ := (construction_accepts_partial maxDim cls ds cps (some kvs) ws hg).1 (by rw [hs]; rfl)
  have hk : ∀ l, some kvs = some l → l.length = ds.length := fun l hl => (h1.2.1 l hl).1
  have hc := (newCore_created_iff maxDim ds cps (some kvs) ws _ hk).2 ⟨h1, h2, h3, rfl⟩
  rw [construct_eq maxDim cls ds cps (some kvs) ws hg hk h1.2.2.2 _ rfl, hc] at hs
  simp only [takeCore, Bool.false_eq_true, if_false, List.nil_append, List.length_nil, Option.some.injEq] at hs
  refine ⟨_, by rw [← hs]; rfl, ?_⟩
  rw [← hs]
  exact (edit_reaches_spline_partial maxDim cls _ 0 _ l rfl rfl rfl (by simp)).2

/-- and right after a refinement -/
theorem edit_after_refinement (maxDim : ℕ) (cls : Cls) (s s' : State K) (c : Core K) (l : List (List K)) (hc : s.core.isSome) (hk : c.kvs.isSome)
    (hs : step maxDim cls s (.modify c) = ⟨s', false⟩) :
    s'.core = some c ∧ (step maxDim cls s' (.editKvs l)).state.core = some { c with kvs := some l } := by
  obtain hn | ⟨i, hn⟩ := Option.eq_none_or_eq_some s.cur
  · simp [State.core, hn] at hc
  · simp only [step, hn, Res.mk.injEq, and_true] at hs
    have hlt : i < s.heap.length := by
      by_contra hge
      have : s.heap[i]? = none := List.getElem?_eq_none (by omega)
      simp [State.core, hn, this] at hc
    have h2 : s'.heap[i]? = some c := by subst hs; simp [hlt]
    have h1 : s'.cur = some i := by subst hs; rfl
    exact ⟨by simp [State.core, h1, h2], (edit_reaches_spline_partial maxDim cls s' i c l h1 h2 hk (by subst hs; simp)).2⟩

/-! ### where the code deviates -/

private def line : List (Op ℚ) := [.degrees [1], .kvs [[0, 0, 1, 1]], .cps ⟨1, [[0], [1]]⟩]
private def arc : List (Op ℚ) := line ++ [.ws [1, 2]]

/-- C21 fails: an assignment that raises leaves the rejected value to be read, while the spline keeps the old one -/
theorem rejected_assignment_violates :
    ∃ s : State ℚ, run 3 .bspline {} line = some s ∧
      (step 3 .bspline s (.degrees [5])).raised = true ∧
      (getDegrees (step 3 .bspline s (.degrees [5])).state).2 = some [5] ∧
      ((step 3 .bspline s (.degrees [5])).state.core.map Core.degrees) = some [1] := by
  refine ⟨(run 3 .bspline {} line).getD {}, ?_, ?_, ?_, ?_⟩ <;> decide +kernel

/-- C21 fails: control points assigned to a rational spline right after a refinement are silently dropped -/
theorem lost_assignment_violates :
    ∃ s : State ℚ, run 3 .nurbs {} (arc ++ [.modify ⟨.nurbs, [1], some [[0, 0, 1/2, 1, 1]], ⟨1, [[0], [1/2], [1]]⟩, some [1, 3/2, 2]⟩,
        .cps ⟨1, [[7], [8], [9]]⟩]) = some s ∧
      (getCps s).2 = some ⟨1, [[0], [1/2], [1]]⟩ ∧ s.core.map Core.cps = some ⟨1, [[0], [1/2], [1]]⟩ := by
  refine ⟨(run 3 .nurbs {} (arc ++ [.modify ⟨.nurbs, [1], some [[0, 0, 1/2, 1, 1]], ⟨1, [[0], [1/2], [1]]⟩, some [1, 3/2, 2]⟩,
        .cps ⟨1, [[7], [8], [9]]⟩])).getD {}, ?_, ?_, ?_⟩ <;> decide +kernel

/-- C22 fails: the multi index of a Bezier patch is kept when its degrees are swapped -/
theorem stale_multi_index_violates :
    ∃ s : State ℚ, run 3 .bezier {} [.degrees [1, 2], .cps ⟨1, [[0], [1], [2], [3], [4], [5]]⟩, .readMultiIndex, .degrees [2, 1]] = some s ∧
      (getMultiIndex s).map Prod.snd = some [2, 3] ∧ s.core.map resolutions = some [3, 2] := by
  refine ⟨(run 3 .bezier {} [.degrees [1, 2], .cps ⟨1, [[0], [1], [2], [3], [4], [5]]⟩, .readMultiIndex, .degrees [2, 1]]).getD {}, ?_, ?_, ?_⟩ <;> decide +kernel

/-- C62 fails: after control points are assigned to a B-spline, knots assigned through `knot_vectors` are read back but do not reach the spline that is evaluated -/
theorem stale_parameter_space_violates :
    ∃ s : State ℚ, run 3 .bspline {} (line ++ [.cps ⟨1, [[3], [4]]⟩, .editKvs [[0, 0, 2, 2]]]) = some s ∧
      (getKvs s).2 = some [[0, 0, 2, 2]] ∧ s.core.map Core.kvs = some (some [[0, 0, 1, 1]]) := by
  refine ⟨(run 3 .bspline {} (line ++ [.cps ⟨1, [[3], [4]]⟩, .editKvs [[0, 0, 2, 2]]])).getD {}, ?_, ?_, ?_⟩ <;> decide +kernel

/-- histories meeting the hypotheses of `reads_latest_partial` and `multi_index_fresh_partial` -/
example : ∃ s : State ℚ, run 3 .bspline {} (line ++ [.readMultiIndex, .cps ⟨1, [[3], [4]]⟩, .modify ⟨.bspline, [1], some [[0, 0, 1/2, 1, 1]], ⟨1, [[0], [1/2], [1]]⟩, none⟩,
    .cps ⟨1, [[7], [8], [9]]⟩, .readMultiIndex]) = some s ∧ s.core.map resolutions = some [3] ∧ (getCps s).2 = some ⟨1, [[7], [8], [9]]⟩ := by
  refine ⟨(run 3 .bspline {} (line ++ [.readMultiIndex, .cps ⟨1, [[3], [4]]⟩, .modify ⟨.bspline, [1], some [[0, 0, 1/2, 1, 1]], ⟨1, [[0], [1/2], [1]]⟩, none⟩,
    .cps ⟨1, [[7], [8], [9]]⟩, .readMultiIndex])).getD {}, ?_, ?_, ?_⟩ <;> decide +kernel

example : Spec.meshKept false (line ++ [.readMultiIndex, .cps ⟨1, [[3], [4]]⟩, .modify ⟨.bspline, [1], some [[0, 0, 1/2, 1, 1]], ⟨1, [[0], [1/2], [1]]⟩, none⟩,
    .degrees [1], .readMultiIndex]) = true := rfl

example : (run 3 .nurbs ({} : State ℚ) (arc ++ [.readCps, .ws [2, 2], .cps ⟨1, [[5], [6]]⟩, .readKvs])).isSome = true := by decide +kernel

end SplineCore
end Splinepy
