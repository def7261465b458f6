import Verif.Model.Convert
import Verif.Props.Irit

/-!
C108: files are read and written by their extension, and `splinepy convert` keeps the splines.
-/
namespace Splinepy.Convert
open SplineCore Files

set_option linter.unusedSectionVars false

variable {K : Type} [Field K] [LinearOrder K] [IsStrictOrderedRing K] {B F : Type}

/-! ### Specification -/

/-- The name ends with the extension `.e`, in front of which there is another character of the name. -/
def Spec.HasExtension (fname : List Char) (e : String) : Prop :=
  ∃ (stem : List Char) (c : Char), c ≠ '/' ∧ fname = stem ++ c :: '.' :: e.toList

/-- the extensions whose files hold lists of splines that come back -/
def Spec.Lossless (fname : List Char) : Prop :=
  Spec.HasExtension fname "json" ∨ Spec.HasExtension fname "npz" ∨ Spec.HasExtension fname "itd" ∨ Spec.HasExtension fname "irit"

/-! ### extensions -/

theorem components_ne (s : List Char) : components s ≠ [] := by
  cases s with
  | nil => simp [components]
  | cons c cs =>
    rw [components]
    split
    · simp
    · split <;> simp

theorem components_append (s w : List Char) (hw : '/' ∉ w) : ∃ front, components (s ++ w) = front ++ [(components s).getLastD [] ++ w] ∧ components s = front ++ [(components s).getLastD []] := by
  induction s with
  | nil =>
    refine ⟨[], ?_, by simp [components]⟩
    simp only [List.nil_append, components, List.getLastD_cons, List.getLastD_nil]
    induction w with
    | nil => rfl
    | cons c cs ih =>
      rw [components, if_neg (fun e => hw (by simp [e])), ih (fun h => hw (by simp [h]))]
  | cons c cs ih =>
    obtain ⟨front, h1, h2⟩ := ih
    rw [List.cons_append]
    simp only [components]
    by_cases hc : c = '/'
    · rw [if_pos hc, if_pos hc]
      refine ⟨[] :: front, ?_, ?_⟩
      · rw [h1]
        cases hcs : components cs with
        | nil => exact absurd hcs (components_ne cs)
        | cons x xs => simp [List.getLastD_cons]
      · rw [List.cons_append]
        congr 1
        cases hcs : components cs with
        | nil => exact absurd hcs (components_ne cs)
        | cons x xs =>
          rw [hcs] at h2
          simpa [List.getLastD_cons] using h2
    · rw [if_neg hc, if_neg hc, h1]
      generalize hl : (components cs).getLastD [] = l at h1 h2 ⊢
      rw [h2]
      cases front with
      | nil => exact ⟨[], by simp, by simp⟩
      | cons x xs =>
        have e : ((c :: x) :: (xs ++ [l])).getLast?.getD [] = l := by
          rw [← List.cons_append, List.getLast?_concat]
          rfl
        refine ⟨(c :: x) :: xs, ?_, ?_⟩ <;> simp [List.getLastD_eq_getLast?, e]

theorem components_last (s : List Char) (c : Char) (hc : c ≠ '/') : ∃ l, (components (s ++ [c])).getLastD [] = l ++ [c] := by
  obtain ⟨front, h1, -⟩ := components_append s [c] (by simpa using fun e => hc e.symm)
  rw [h1]
  refine ⟨(components s).getLastD [], ?_⟩
  rw [List.getLastD_eq_getLast?, List.getLast?_concat]
  rfl

/-- the extension of a name -/
theorem suffix_of (fname : List Char) (e : String) (h : Spec.HasExtension fname e) (he : e.toList ≠ []) (hs : '/' ∉ e.toList) (hd : '.' ∉ e.toList) : suffix fname = '.' :: e.toList := by
  obtain ⟨stem, c, hc, rfl⟩ := h
  have hw : '/' ∉ '.' :: e.toList := by simp [hs]
  obtain ⟨l, hl⟩ := components_last stem c hc
  obtain ⟨front, h1, -⟩ := components_append (stem ++ [c]) ('.' :: e.toList) hw
  rw [hl] at h1
  have hname : fileName (stem ++ c :: '.' :: e.toList) = l ++ [c] ++ '.' :: e.toList := by
    unfold fileName
    rw [show stem ++ c :: '.' :: e.toList = stem ++ [c] ++ '.' :: e.toList by simp, h1, List.filter_append]
    have : List.filter (fun c => !(c == []) && !(c == ['.'])) [l ++ [c] ++ '.' :: e.toList] = [l ++ [c] ++ '.' :: e.toList] := by
      rw [List.filter_cons_of_pos]
      · rfl
      · have a2 : l ++ [c] ++ '.' :: e.toList ≠ ['.'] := by
          intro h
          have := congrArg List.length h
          simp at this
          omega
        simpa using a2
    rw [this]
    simp [List.getLastD_eq_getLast?]
  unfold suffix
  have hafter : ((l ++ [c] ++ '.' :: e.toList).reverse.takeWhile (· ≠ '.')).reverse = e.toList := by
    rw [List.reverse_append, List.reverse_cons, List.append_assoc, List.takeWhile_append_of_pos]
    · simp
    · intro a ha
      have : a ≠ '.' := fun h => hd (by rw [← h]; simpa using ha)
      simpa using this
  simp only [hname, hafter]
  rw [if_pos ⟨by simp; omega, he⟩]

theorem format_of (fname : List Char) (e : String) (h : Spec.HasExtension fname e) (he : e.toList ≠ []) (hs : '/' ∉ e.toList) (hd : '.' ∉ e.toList) :
    formatOf (suffix fname) = formatOf ('.' :: e.toList) := by rw [suffix_of fname e h he hs hd]

theorem format_json (fname : List Char) (h : Spec.HasExtension fname "json") : formatOf (suffix fname) = some .json := by
  rw [format_of fname _ h (by decide) (by decide) (by decide)]; decide
theorem format_npz (fname : List Char) (h : Spec.HasExtension fname "npz") : formatOf (suffix fname) = some .npz := by
  rw [format_of fname _ h (by decide) (by decide) (by decide)]; decide
theorem format_itd (fname : List Char) (h : Spec.HasExtension fname "itd") : formatOf (suffix fname) = some .irit := by
  rw [format_of fname _ h (by decide) (by decide) (by decide)]; decide
theorem format_irit (fname : List Char) (h : Spec.HasExtension fname "irit") : formatOf (suffix fname) = some .irit := by
  rw [format_of fname _ h (by decide) (by decide) (by decide)]; decide
theorem format_xml (fname : List Char) (h : Spec.HasExtension fname "xml") : formatOf (suffix fname) = some .gismo := by
  rw [format_of fname _ h (by decide) (by decide) (by decide)]; decide
theorem format_mesh (fname : List Char) (h : Spec.HasExtension fname "mesh") : formatOf (suffix fname) = some .mfem := by
  rw [format_of fname _ h (by decide) (by decide) (by decide)]; decide
theorem format_svg (fname : List Char) (h : Spec.HasExtension fname "svg") : formatOf (suffix fname) = some .svg := by
  rw [format_of fname _ h (by decide) (by decide) (by decide)]; decide

theorem savez_same (fname : List Char) (h : Spec.HasExtension fname "npz") : savezName fname = fname := by
  obtain ⟨stem, c, -, rfl⟩ := h
  unfold savezName
  rw [if_pos]
  rw [List.isSuffixOf_iff_suffix]
  exact ⟨stem ++ [c], by simp⟩

/-! ### one format -/

theorem splinesOf_map (objs : List (Obj K)) : splinesOf (objs.map .spline) = some objs := by
  unfold splinesOf
  rw [List.mapM_map]
  induction objs with
  | nil => rfl
  | cons o os ih =>
    rw [List.mapM_cons, ih]
    rfl

/-- what an export of splines writes, and that it can be read -/
theorem exported (maxDim : ℕ) (encode : List K → B) (decode : B → List K) (hcode : ∀ l, decode (encode l) = l) (others : Others K F) (disk : Disk K B F) (fname : List Char)
    (hf : Spec.Lossless fname) (v : Value K) (objs : List (Obj K)) (hv : asList v = objs.map .spline) (h : ∀ o ∈ objs, Irit.Spec.Writable maxDim o) :
    ∃ f c, formatOf (suffix fname) = some f ∧ exportValue encode others disk fname v = (write disk fname c, true) ∧ readAs maxDim decode others f c = some (listOf objs) := by
  have hc : ∀ o ∈ objs, Files.Spec.Constructed maxDim o ∧ o.cls ≠ .spline := fun o ho => ⟨(h o ho).constructed, (h o ho).cls⟩
  have hirit : formatOf (suffix fname) = some .irit → ∃ f c, formatOf (suffix fname) = some f ∧ exportValue encode others disk fname v = (write disk fname c, true) ∧
      readAs maxDim decode others f c = some (listOf objs) := by
    intro hi
    have := Irit.irit_round_trip_partial maxDim objs h
    obtain ⟨ts, h1, h2⟩ := Option.bind_eq_some_iff.1 this
    refine ⟨.irit, .irit ts, hi, ?_, ?_⟩
    · unfold exportValue
      rw [hi]
      simp only [exportAs, hv, splinesOf_map, Option.bind_some, h1]
    · simp only [readAs, h2, Option.map_some]
  rcases hf with hf | hf | hf | hf
  · have := json_round_trip_partial maxDim encode decode hcode false objs hc
    obtain ⟨j, h1, h2⟩ := Option.bind_eq_some_iff.1 this
    refine ⟨.json, .json j, format_json fname hf, ?_, ?_⟩
    · unfold exportValue
      rw [format_json fname hf]
      simp only [exportAs, hv, splinesOf_map, Option.bind_some, h1, Option.map_some, writeSome]
    · simp only [readAs, h2, Option.map_some]
  · have := npz_round_trip_typed_partial maxDim [] "a.npz".toList (by decide) objs hc
    refine ⟨.npz, .npz (archive objs), format_npz fname hf, ?_, ?_⟩
    · unfold exportValue
      rw [format_npz fname hf]
      simp only [exportAs, hv, splinesOf_map, Option.map_some, writeSome, savez_same fname hf]
    · have hs : savezName "a.npz".toList = "a.npz".toList := by decide
      unfold npzLoad npzExport FileSystem.read at this
      rw [hs, List.lookup_cons_self, Option.bind_some] at this
      simp only [readAs]
      have hn : (archive objs).lookup .number = some (.int objs.length) := by
        unfold archive
        rw [List.lookup_cons_self]
      rw [hn] at this ⊢
      simp only at this ⊢
      rw [this]
      rfl
  · exact hirit (format_itd fname hf)
  · exact hirit (format_irit fname hf)

theorem lookup_write (disk : Disk K B F) (fname : List Char) (c : Content K B F) (f : List Char) : (write disk fname c).lookup f = if f = fname then some c else disk.lookup f := by
  unfold write
  by_cases h : f = fname
  · subst h
    rw [List.lookup_cons_self, if_pos rfl]
  · rw [if_neg h, List.lookup_cons]
    have : (f == fname) = false := by simpa using h
    rw [this]

/-- loading never changes a file: an irit file is written again as it was -/
theorem load_files (maxDim : ℕ) (decode : B → List K) (others : Others K F) (disk : Disk K B F) (fname f : List Char) :
    (loadValue maxDim decode others disk fname).1.lookup f = disk.lookup f := by
  unfold loadValue
  split
  · rename_i fmt c h1 h2
    split
    · rw [lookup_write]
      split
      · rename_i h3
        rw [h3, h2]
      · rfl
    · rfl
  · rfl

/-! ### Theorems -/

/-- C108: splines written with `io.export` to a json, npz or irit file come back from `io.load`, as one list, no matter whether a list or a single spline was written; no
other file is changed. -/
theorem export_load (maxDim : ℕ) (encode : List K → B) (decode : B → List K) (hcode : ∀ l, decode (encode l) = l) (others : Others K F) (disk : Disk K B F) (fname : List Char)
    (hf : Spec.Lossless fname) (objs : List (Obj K)) (h : ∀ o ∈ objs, Irit.Spec.Writable maxDim o) (v : Value K) (hv : v = listOf objs ∨ ∃ o, objs = [o] ∧ v = .spline o) :
    ∃ disk', exportValue encode others disk fname v = (disk', true) ∧ (loadValue maxDim decode others disk' fname).2 = some (listOf objs) ∧
      ∀ f, f ≠ fname → disk'.lookup f = disk.lookup f := by
  have hv' : asList v = objs.map .spline := by
    rcases hv with rfl | ⟨o, rfl, rfl⟩ <;> rfl
  obtain ⟨fmt, c, h1, h2, h3⟩ := exported maxDim encode decode hcode others disk fname hf v objs hv' h
  refine ⟨write disk fname c, h2, ?_, ?_⟩
  · unfold loadValue
    rw [h1, lookup_write, if_pos rfl]
    exact h3
  · intro f hne
    rw [lookup_write, if_neg hne]

/-- C108: `splinepy convert` between json, npz and irit files: if the input file loads as a list of splines, the output file loads as the same list, and no file besides the
output file changes. -/
theorem convert_keeps_partial (maxDim : ℕ) (encode : List K → B) (decode : B → List K) (hcode : ∀ l, decode (encode l) = l) (others : Others K F) (disk : Disk K B F)
    (inp out : List Char) (hout : Spec.Lossless out) (objs : List (Obj K)) (h : ∀ o ∈ objs, Irit.Spec.Writable maxDim o)
    (hload : (loadValue maxDim decode others disk inp).2 = some (listOf objs) ∨ ∃ o, objs = [o] ∧ (loadValue maxDim decode others disk inp).2 = some (.spline o)) :
    ∃ disk', convert maxDim encode decode others disk inp out = (disk', true) ∧ (loadValue maxDim decode others disk' out).2 = some (listOf objs) ∧
      ∀ f, f ≠ out → disk'.lookup f = disk.lookup f := by
  have hkey : ∃ v, (loadValue maxDim decode others disk inp).2 = some v ∧ asList v = objs.map .spline := by
    rcases hload with hl | ⟨o, rfl, hl⟩
    · exact ⟨_, hl, rfl⟩
    · exact ⟨_, hl, rfl⟩
  obtain ⟨v, hl, hv⟩ := hkey
  obtain ⟨disk', e1, e2, e3⟩ := export_load maxDim encode decode hcode others (loadValue maxDim decode others disk inp).1 out hout objs h (listOf objs) (.inl rfl)
  refine ⟨disk', ?_, e2, ?_⟩
  · unfold convert
    have : loadValue maxDim decode others disk inp = ((loadValue maxDim decode others disk inp).1, some v) := Prod.ext rfl hl
    rw [this]
    simp only [hv]
    exact e1
  · intro f hf
    rw [e3 f hf, load_files]

/-- C108: there and back again, through any two of the formats. -/
theorem convert_round_trip (maxDim : ℕ) (encode : List K → B) (decode : B → List K) (hcode : ∀ l, decode (encode l) = l) (others : Others K F) (disk : Disk K B F)
    (a b : List Char) (ha : Spec.Lossless a) (hb : Spec.Lossless b) (objs : List (Obj K)) (h : ∀ o ∈ objs, Irit.Spec.Writable maxDim o) :
    ∃ d1 d2 d3, exportValue encode others disk a (listOf objs) = (d1, true) ∧ convert maxDim encode decode others d1 a b = (d2, true) ∧
      convert maxDim encode decode others d2 b a = (d3, true) ∧ (loadValue maxDim decode others d3 a).2 = some (listOf objs) := by
  obtain ⟨d1, e1, e2, -⟩ := export_load maxDim encode decode hcode others disk a ha objs h (listOf objs) (.inl rfl)
  obtain ⟨d2, f1, f2, -⟩ := convert_keeps_partial maxDim encode decode hcode others d1 a b hb objs h (.inl e2)
  obtain ⟨d3, g1, g2, -⟩ := convert_keeps_partial maxDim encode decode hcode others d2 b a ha objs h (.inl f2)
  exact ⟨d1, d2, d3, e1, f1, g1, g2⟩

/-- C108: a name without one of the extensions is refused, for reading and for writing, and no file changes. -/
theorem extension_refused (maxDim : ℕ) (encode : List K → B) (decode : B → List K) (others : Others K F) (disk : Disk K B F) (fname : List Char)
    (hf : suffix fname ∉ [".xml".toList, ".iges".toList, ".igs".toList, ".itd".toList, ".irit".toList, ".json".toList, ".mesh".toList, ".npz".toList, ".svg".toList]) :
    (∀ v, exportValue encode others disk fname v = (disk, false)) ∧ loadValue maxDim decode others disk fname = (disk, none) ∧
      (∀ out, convert maxDim encode decode others disk fname out = (disk, false)) ∧
      ∀ inp, (convert maxDim encode decode others disk inp fname).2 = false ∧ ∀ f, (convert maxDim encode decode others disk inp fname).1.lookup f = disk.lookup f := by
  simp only [List.mem_cons, List.not_mem_nil, or_false, not_or] at hf
  obtain ⟨h1, h2, h3, h4, h5, h6, h7, h8, h9⟩ := hf
  have hfmt : formatOf (suffix fname) = none := by
    unfold formatOf
    rw [if_neg h1, if_neg (not_or.2 ⟨h2, h3⟩), if_neg (not_or.2 ⟨h4, h5⟩), if_neg h6, if_neg h7, if_neg h8, if_neg h9]
  have hexp : ∀ (disk : Disk K B F) v, exportValue encode others disk fname v = (disk, false) := by
    intro disk v
    unfold exportValue
    rw [hfmt]
  have hl : loadValue maxDim decode others disk fname = (disk, none) := by
    unfold loadValue
    rw [hfmt]
  refine ⟨hexp disk, hl, fun out => ?_, fun inp => ?_⟩
  · unfold convert
    rw [hl]
  · have hf := load_files maxDim decode others disk inp
    unfold convert
    split
    · rename_i d' hd
      refine ⟨rfl, fun f => ?_⟩
      rw [← hf f, hd]
    · rename_i d' v hd
      rw [hexp]
      refine ⟨rfl, fun f => ?_⟩
      rw [← hf f, hd]

/-- C108: a failed export to a json, npz, gismo, mfem or svg file leaves all files as they were. Missing: irit files (`failed_export_violates`). -/
theorem failed_export_keeps_partial (encode : List K → B) (others : Others K F) (disk : Disk K B F) (fname : List Char) (v : Value K)
    (hf : suffix fname ≠ ".itd".toList ∧ suffix fname ≠ ".irit".toList)
    (h : (exportValue encode others disk fname v).2 = false) : (exportValue encode others disk fname v).1 = disk := by
  have hw : ∀ (d : Disk K B F) n (c : Option (Content K B F)), (writeSome d n c).2 = false → (writeSome d n c).1 = d := by
    intro d n c
    cases c <;> simp [writeSome]
  unfold exportValue at h ⊢
  split
  · rfl
  · rename_i f hfmt
    rw [hfmt] at h
    simp only at h
    cases f with
    | irit =>
      unfold formatOf at hfmt
      simp only [if_neg (not_or.2 hf)] at hfmt
      split_ifs at hfmt <;> simp at hfmt
    | json => exact hw _ _ _ h
    | npz => exact hw _ _ _ h
    | gismo => exact hw _ _ _ h
    | svg => exact hw _ _ _ h
    | iges =>
      simp only [exportAs] at h ⊢
      split
      · exact hw _ _ _ h
      · rfl
    | mfem =>
      simp only [exportAs] at h ⊢
      split
      · exact hw _ _ _ h
      · rfl

/-! ### what does not work -/

theorem splinesOf_other : splinesOf (K := K) [.other] = none := rfl

/-- C108 fails for gismo files: `convert` raises for every gismo file and every output, because the pair of multipatch and options is taken for a spline. -/
theorem convert_from_xml_violates (maxDim : ℕ) (encode : List K → B) (decode : B → List K) (others : Others K F) (disk : Disk K B F) (inp out : List Char)
    (hinp : Spec.HasExtension inp "xml") : (convert maxDim encode decode others disk inp out).2 = false := by
  unfold convert
  split
  · rfl
  · rename_i d v hd
    have hv : ∃ ps, v = .pair ps := by
      have h2 := congrArg Prod.snd hd
      unfold loadValue at h2
      rw [format_xml inp hinp] at h2
      cases hl : disk.lookup inp with
      | none => rw [hl] at h2; cases h2
      | some c =>
        rw [hl] at h2
        cases c with
        | foreign x =>
          simp only [readAs] at h2
          obtain ⟨ps, -, h3⟩ := Option.map_eq_some_iff.1 h2
          exact ⟨ps, h3.symm⟩
        | _ => cases h2
    obtain ⟨ps, rfl⟩ := hv
    unfold exportValue
    split
    · rfl
    · rename_i f _
      cases f <;> simp [exportAs, asList, splinesOf_other, writeSome]

/-- C108 fails for mfem files as output: `convert` hands over a list, `mfem.export` takes a spline. -/
theorem convert_to_mesh_violates (maxDim : ℕ) (encode : List K → B) (decode : B → List K) (others : Others K F) (disk : Disk K B F) (inp out : List Char)
    (hout : Spec.HasExtension out "mesh") : (convert maxDim encode decode others disk inp out).2 = false := by
  unfold convert
  split
  · rfl
  · unfold exportValue
    rw [format_mesh out hout]
    rfl

/-- C108: what was written to a svg file cannot be loaded, by design of the format. -/
theorem load_svg_refused (maxDim : ℕ) (decode : B → List K) (others : Others K F) (disk : Disk K B F) (fname : List Char) (h : Spec.HasExtension fname "svg") :
    (loadValue maxDim decode others disk fname).2 = none := by
  unfold loadValue
  rw [format_svg fname h]
  cases disk.lookup fname with
  | none => rfl
  | some c => cases c <;> rfl

/-- C108 fails for irit files as output: if the export raises, the file that was there is lost. Here: a good irit file, and a conversion of a gismo file to its name. -/
theorem failed_export_violates : ∃ (disk : Disk ℚ (List ℚ) (List (Obj ℚ))) (others : Others ℚ (List (Obj ℚ))) (disk' : Disk ℚ (List ℚ) (List (Obj ℚ))),
    (loadValue 3 id others disk "a.itd".toList).2 = some (listOf [exampleNurbs]) ∧ convert 3 id id others disk "b.xml".toList "a.itd".toList = (disk', false) ∧
      (loadValue 3 id others disk' "a.itd".toList).2 = none := by
  let others : Others ℚ (List (Obj ℚ)) := ⟨some, some, fun _ => none, fun _ => none, some, some, some⟩
  obtain ⟨d, h1, h2, h3⟩ := export_load 3 id id (fun _ => rfl) others [("b.xml".toList, Content.foreign [exampleNurbs])] "a.itd".toList
    (.inr (.inr (.inl ⟨[], 'a', by decide, rfl⟩))) [exampleNurbs] (by intro o ho; rw [List.mem_singleton] at ho; subst ho; exact Irit.exampleNurbs_writable) (listOf [exampleNurbs]) (.inl rfl)
  refine ⟨d, others, write d "a.itd".toList .broken, h2, ?_, ?_⟩
  · have hb : d.lookup "b.xml".toList = some (Content.foreign [exampleNurbs]) := by
      rw [h3 _ (by decide)]
      exact List.lookup_cons_self
    have hl : loadValue 3 id others d "b.xml".toList = (d, some (.pair [exampleNurbs])) := by
      unfold loadValue
      rw [format_xml "b.xml".toList ⟨[], 'b', by decide, rfl⟩, hb]
      rfl
    unfold convert
    rw [hl]
    unfold exportValue
    simp only
    rw [format_itd "a.itd".toList ⟨[], 'a', by decide, rfl⟩]
    rfl
  · unfold loadValue
    rw [format_itd "a.itd".toList ⟨[], 'a', by decide, rfl⟩, lookup_write, if_pos rfl]
    rfl

/-! ### cases -/

/-- Non-vacuity: names in folders, with several dots, and names that are refused. -/
example : suffix "out/part.v2.json".toList = ".json".toList ∧ suffix ".json".toList = [] ∧ suffix "a.".toList = [] ∧ suffix "a.JSON".toList = ".JSON".toList ∧
    suffix "x.d/a".toList = [] ∧ suffix "a.npz/".toList = ".npz".toList := by decide

example : Spec.Lossless "out/part.v2.json".toList := .inl ⟨"out/part.v".toList, '2', by decide, by decide⟩

/-- Non-vacuity: from json to irit and back. -/
example : ∃ d1 d2 d3, exportValue id (⟨some, some, fun _ => none, fun _ => none, some, some, some⟩ : Others ℚ (List (Obj ℚ))) [] "a.json".toList (listOf [exampleNurbs, exampleNurbs]) = (d1, true) ∧
    convert 3 id id ⟨some, some, fun _ => none, fun _ => none, some, some, some⟩ d1 "a.json".toList "b.irit".toList = (d2, true) ∧
    convert 3 id id ⟨some, some, fun _ => none, fun _ => none, some, some, some⟩ d2 "b.irit".toList "a.json".toList = (d3, true) ∧
    (loadValue 3 id ⟨some, some, fun _ => none, fun _ => none, some, some, some⟩ d3 "a.json".toList).2 = some (listOf [exampleNurbs, exampleNurbs]) :=
  convert_round_trip 3 id id (fun _ => rfl) _ [] _ _ (.inl ⟨[], 'a', by decide, rfl⟩) (.inr (.inr (.inr ⟨[], 'b', by decide, rfl⟩))) _ (by
    intro o ho
    simp only [List.mem_cons, List.not_mem_nil, or_false, or_self] at ho
    subst ho
    exact Irit.exampleNurbs_writable)

end Splinepy.Convert
