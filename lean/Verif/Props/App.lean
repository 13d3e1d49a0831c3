import Verif.Model.App
import Mathlib.Data.List.TakeWhile

/-
C51 (the app never overwrites its input), C59 (output folder).
-/
namespace Anticipy

theorem baseName_append (a b : Path) (hb : '/' ∉ b) : baseName (a ++ '/' :: b) = b := by
  unfold baseName
  rw [List.reverse_append, List.reverse_cons, List.append_assoc, List.takeWhile_append_of_pos]
  · simp
  · intro c hc
    rw [List.mem_reverse] at hc
    simp only [decide_eq_true_eq]
    rintro rfl; exact hb hc

theorem dirHead_append (a b : Path) (hb : '/' ∉ b) : dirHead (a ++ '/' :: b) = a ++ ['/'] := by
  unfold dirHead
  rw [List.reverse_append, List.reverse_cons, List.append_assoc, List.dropWhile_append_of_pos]
  · simp
  · intro c hc
    rw [List.mem_reverse] at hc
    simp only [decide_eq_true_eq]
    rintro rfl; exact hb hc

theorem baseName_plain (b : Path) (hb : '/' ∉ b) : baseName b = b := by
  unfold baseName
  rw [List.takeWhile_eq_self_iff.2, List.reverse_reverse]
  intro c hc
  rw [List.mem_reverse] at hc
  simp only [decide_eq_true_eq]
  rintro rfl; exact hb hc

theorem baseName_no_slash (p : Path) : '/' ∉ baseName p := by
  unfold baseName
  rw [List.mem_reverse]
  intro h
  have := List.mem_takeWhile_imp h
  simp at this

theorem stem_no_slash (p : Path) : '/' ∉ stem (baseName p) := fun h =>
  baseName_no_slash p ((List.takeWhile_prefix _).subset h)

theorem baseName_join (a b : Path) (hb : '/' ∉ b) : baseName (joinPath a b) = b := by
  unfold joinPath
  rw [if_neg (by intro h; exact hb (List.mem_of_mem_head? h))]
  split
  · rename_i h
    rcases h with rfl | h
    · exact baseName_plain b hb
    · obtain ⟨l, rfl⟩ := List.getLast?_eq_some_iff.1 h
      rw [List.append_assoc]
      exact baseName_append l b hb
  · exact baseName_append a b hb

theorem stem_split (n : Path) : ∃ rest, n = stem n ++ rest ∧ (rest = [] ∨ rest.head? = some '.') := by
  refine ⟨n.dropWhile (· ≠ '.'), (List.takeWhile_append_dropWhile).symm, ?_⟩
  cases h : n.dropWhile (· ≠ '.') with
  | nil => exact Or.inl rfl
  | cons c l =>
    right
    have := List.head_dropWhile_not (p := fun c : Char => decide (c ≠ '.')) (l := n) (by rw [h]; simp)
    simp only [h, List.head_cons, decide_eq_false_iff_not, not_not] at this
    rw [this]; rfl

/-- A name formed by appending something that does not start with a dot to the stem differs from the name. -/
theorem stem_append_ne (n s : Path) (c : Char) (hc : c ≠ '.') : stem n ++ c :: s ≠ n := by
  intro h
  obtain ⟨rest, hr, h1⟩ := stem_split n
  have : c :: s = rest := by
    have : stem n ++ c :: s = stem n ++ rest := h.trans hr
    exact List.append_cancel_left this
  subst this
  rcases h1 with h1 | h1
  · cases h1
  · simp at h1; exact hc h1

/-- All files the app writes: data, metadata and the plot (in either file format). -/
def AppPaths.files (a : AppPaths) : List Path := [a.data, a.metadata, a.plot ++ ".png".toList, a.plot ++ ".html".toList]

theorem appPaths_ok (fs : FileSystem) (pIn pOut : Option Path) (r : AppPaths) (h : appPaths fs pIn pOut = .ok r) :
    ∃ p, pIn = some p ∧ fs.exists_ p = true ∧ fs.isDir p = false ∧ fs.exists_ (pOut.getD p) = true ∧
      r.data = joinPath (dirName (pOut.getD p)) (stem (baseName p) ++ "_fcast.csv".toList) ∧
      r.metadata = joinPath (dirName (pOut.getD p)) (stem (baseName p) ++ "_metadata.csv".toList) ∧
      r.plot = joinPath (dirName (pOut.getD p)) (stem (baseName p) ++ "_fcast".toList) := by
  unfold appPaths at h
  cases pIn with
  | none => cases h
  | some p =>
    simp only [Bind.bind, Except.bind, pyAssert] at h
    split_ifs at h with h1 h2 h3 <;> try (cases h; done)
    cases h
    refine ⟨p, rfl, h1, ?_, h3, rfl, rfl, rfl⟩
    cases hd : fs.isDir p
    · rfl
    · simp [hd] at h2

theorem join_plot (a b e : Path) (hb : '/' ∉ b) (hbn : b ≠ []) : joinPath a b ++ e = joinPath a (b ++ e) := by
  unfold joinPath
  have h1 : ¬ b.head? = some '/' := fun h => hb (List.mem_of_mem_head? h)
  have h2 : ¬ (b ++ e).head? = some '/' := by
    cases b with
    | nil => exact absurd rfl hbn
    | cons c l => exact fun h => h1 h
  rw [if_neg h1, if_neg h2]
  split <;> simp

/-- Base names of the files the app writes. -/
theorem files_base (fs : FileSystem) (pIn : Path) (pOut : Option Path) (r : AppPaths) (h : appPaths fs (some pIn) pOut = .ok r) :
    r.files.map baseName = ["_fcast.csv", "_metadata.csv", "_fcast.png", "_fcast.html"].map fun s => stem (baseName pIn) ++ s.toList := by
  obtain ⟨p, hp, _, _, _, h1, h2, h3⟩ := appPaths_ok fs _ _ r h
  cases hp
  have hs := stem_no_slash pIn
  have hns : ∀ s : Path, '/' ∉ s → '/' ∉ stem (baseName pIn) ++ s := fun s h => by simp [hs, h]
  simp only [AppPaths.files, List.map_cons, List.map_nil, h1, h2, h3]
  rw [baseName_join _ _ (hns _ (by decide)), baseName_join _ _ (hns _ (by decide)),
    join_plot _ _ _ (hns _ (by decide)) (by simp), join_plot _ _ _ (hns _ (by decide)) (by simp),
    baseName_join _ _ (by simp [hs]), baseName_join _ _ (by simp [hs])]
  simp

/-- **C51** The files written by the app differ from each other and from the input file. -/
theorem C51_no_overwrite (fs : FileSystem) (pIn : Path) (pOut : Option Path) (r : AppPaths) (h : appPaths fs (some pIn) pOut = .ok r) :
    r.files.Nodup ∧ pIn ∉ r.files := by
  have hb := files_base fs pIn pOut r h
  constructor
  · suffices hn : (r.files.map baseName).Nodup from (List.pairwise_map.1 hn).imp fun h e => h (congrArg _ e)
    rw [hb]
    refine List.pairwise_map.2 (List.Pairwise.imp (R := (· ≠ ·)) ?_ (by decide))
    intro a b hab he
    exact hab (String.toList_inj.1 (List.append_cancel_left he))
  · intro hm
    have := List.mem_map_of_mem (f := baseName) hm
    rw [hb] at this
    obtain ⟨s, hs, he⟩ := List.mem_map.1 this
    simp only [List.mem_cons, List.not_mem_nil, or_false] at hs
    rcases hs with rfl | rfl | rfl | rfl
    · exact stem_append_ne (baseName pIn) "fcast.csv".toList '_' (by decide) he
    · exact stem_append_ne (baseName pIn) "metadata.csv".toList '_' (by decide) he
    · exact stem_append_ne (baseName pIn) "fcast.png".toList '_' (by decide) he
    · exact stem_append_ne (baseName pIn) "fcast.html".toList '_' (by decide) he

/-- Two names of output files agree only if the stems agree. -/
theorem suffix_cancel (a b : Path) (s s' : String) (hs : s ∈ ["_fcast.csv", "_metadata.csv", "_fcast.png", "_fcast.html"])
    (hs' : s' ∈ ["_fcast.csv", "_metadata.csv", "_fcast.png", "_fcast.html"]) (h : a ++ s.toList = b ++ s'.toList) : a = b := by
  have h := congrArg List.reverse h
  rw [List.reverse_append, List.reverse_append] at h
  simp only [List.mem_cons, List.not_mem_nil, or_false] at hs hs'
  rcases hs with rfl | rfl | rfl | rfl <;> rcases hs' with rfl | rfl | rfl | rfl <;> simp at h <;> exact h

/-- **C51** Two runs write a common file only if the input names agree up to the first dot. -/
theorem C51_collision (fs fs' : FileSystem) (p q : Path) (po qo : Option Path) (r r' : AppPaths)
    (h : appPaths fs (some p) po = .ok r) (h' : appPaths fs' (some q) qo = .ok r') (f : Path) (hf : f ∈ r.files) (hf' : f ∈ r'.files) :
    stem (baseName p) = stem (baseName q) := by
  have h1 := List.mem_map_of_mem (f := baseName) hf
  have h2 := List.mem_map_of_mem (f := baseName) hf'
  rw [files_base fs p po r h] at h1
  rw [files_base fs' q qo r' h'] at h2
  obtain ⟨s, hs, he⟩ := List.mem_map.1 h1
  obtain ⟨s', hs', he'⟩ := List.mem_map.1 h2
  exact suffix_cancel _ _ s s' hs hs' (he.trans he'.symm)

/-- A file system in which the named paths are files, the ones ending in a slash and the listed folders are folders. -/
def demoFs : FileSystem where
  exists_ := fun p => p ∈ ["/data/a.1.csv".toList, "/data/a.2.csv".toList, "/data/out".toList, "/data/out/".toList, "/data".toList]
  isDir := fun p => p ∈ ["/data/out".toList, "/data/out/".toList, "/data".toList]

/-- A run meeting the hypotheses. -/
theorem C51_example : (appPaths demoFs (some "/data/a.1.csv".toList) none).map AppPaths.files =
    .ok (["/data/a_fcast.csv", "/data/a_metadata.csv", "/data/a_fcast.png", "/data/a_fcast.html"].map String.toList) := by
  decide +kernel

/-- **C51** Different inputs are not enough: names that agree up to the first dot give the same output files. -/
theorem C51_counterexample_same_stem :
    appPaths demoFs (some "/data/a.1.csv".toList) none = appPaths demoFs (some "/data/a.2.csv".toList) none ∧
      (appPaths demoFs (some "/data/a.1.csv".toList) none).isOk = true := by
  decide +kernel

theorem dirName_slash (a b : Path) (ha : ∃ c ∈ a, c ≠ '/') (hl : a.getLast? ≠ some '/') (hb : '/' ∉ b) : dirName (a ++ '/' :: b) = a := by
  unfold dirName
  rw [dirHead_append a b hb]
  obtain ⟨c, hc, hne⟩ := ha
  have hno : ¬ (a ++ ['/']).all (· = '/') = true := by
    simp only [List.all_eq_true, not_forall, decide_eq_true_eq]
    exact ⟨c, by simp [hc], hne⟩
  rw [if_neg (by simpa using hno)]
  have : a.reverse.dropWhile (· = '/') = a.reverse := by
    cases hr : a.reverse with
    | nil => rfl
    | cons d l =>
      rw [List.dropWhile_cons_of_neg]
      simp only [decide_eq_true_eq]
      rintro rfl
      apply hl
      rw [← List.head?_reverse, hr]; rfl
  simp [List.reverse_append, this]

theorem dirName_noSlash (b : Path) (hb : '/' ∉ b) : dirName b = [] := by
  have : dirHead b = [] := by
    unfold dirHead
    rw [List.reverse_eq_nil_iff, List.dropWhile_eq_nil_iff]
    intro c hc
    rw [List.mem_reverse] at hc
    simp only [decide_eq_true_eq]
    rintro rfl; exact hb hc
  simp [dirName, this]

/-- Spec: the path `f` names an entry of the folder `d`. -/
def Spec.InFolder (d f : Path) : Prop := ∃ n, '/' ∉ n ∧ n ≠ [] ∧ f = d ++ '/' :: n

theorem inFolder_join (d n : Path) (hd : d ≠ []) (hl : d.getLast? ≠ some '/') (hn : '/' ∉ n) (hn0 : n ≠ []) :
    Spec.InFolder d (joinPath d n) := by
  refine ⟨n, hn, hn0, ?_⟩
  unfold joinPath
  rw [if_neg (fun h : n.head? = some '/' => hn (List.mem_of_mem_head? h)), if_neg (not_or.2 ⟨hd, hl⟩)]

theorem files_inFolder (fs : FileSystem) (pIn : Path) (pOut : Option Path) (r : AppPaths) (d : Path)
    (h : appPaths fs (some pIn) pOut = .ok r) (hd : d ≠ []) (hl : d.getLast? ≠ some '/') (hdir : dirName (pOut.getD pIn) = d) :
    ∀ f ∈ r.files, Spec.InFolder d f := by
  obtain ⟨p, hp, _, _, _, h1, h2, h3⟩ := appPaths_ok fs _ _ r h
  cases hp
  have hs := stem_no_slash pIn
  rw [hdir] at h1 h2 h3
  intro f hf
  simp only [AppPaths.files, List.mem_cons, List.not_mem_nil, or_false] at hf
  rcases hf with rfl | rfl | rfl | rfl
  · rw [h1]; exact inFolder_join _ _ hd hl (by simp [hs]) (by simp)
  · rw [h2]; exact inFolder_join _ _ hd hl (by simp [hs]) (by simp)
  · rw [h3, join_plot _ _ _ (by simp [hs]) (by simp)]; exact inFolder_join _ _ hd hl (by simp [hs]) (by simp)
  · rw [h3, join_plot _ _ _ (by simp [hs]) (by simp)]; exact inFolder_join _ _ hd hl (by simp [hs]) (by simp)

theorem nonslash_of_last (d : Path) (hd : d ≠ []) (hl : d.getLast? ≠ some '/') : ∃ c ∈ d, c ≠ '/' := by
  refine ⟨d.getLast hd, List.getLast_mem hd, ?_⟩
  intro he
  apply hl
  rw [List.getLast?_eq_some_getLast hd, he]

/-- **C59** (partial: only for a folder written with a trailing slash) All files go into the output folder. -/
theorem C59_trailing_slash_partial (fs : FileSystem) (pIn d : Path) (r : AppPaths) (hd : d ≠ []) (hl : d.getLast? ≠ some '/')
    (h : appPaths fs (some pIn) (some (d ++ ['/'])) = .ok r) : ∀ f ∈ r.files, Spec.InFolder d f := by
  refine files_inFolder fs pIn _ r d h hd hl ?_
  exact dirName_slash d [] (nonslash_of_last d hd hl) hl (by simp)

/-- **C59** Without an output folder the files are written next to the input file. -/
theorem C59_default (fs : FileSystem) (d name : Path) (r : AppPaths) (hd : d ≠ []) (hl : d.getLast? ≠ some '/') (hn : '/' ∉ name)
    (h : appPaths fs (some (d ++ '/' :: name)) none = .ok r) : ∀ f ∈ r.files, Spec.InFolder d f := by
  refine files_inFolder fs _ _ r d h hd hl ?_
  exact dirName_slash d name (nonslash_of_last d hd hl) hl hn

/-- **C59** An input file in the root folder or in the working folder: the files are written there as well. -/
theorem C59_top (fs : FileSystem) (name : Path) (r : AppPaths) (hn : '/' ∉ name) :
    (appPaths fs (some ('/' :: name)) none = .ok r → ∀ f ∈ r.files, Spec.InFolder [] f) ∧
    (appPaths fs (some name) none = .ok r → ∀ f ∈ r.files, '/' ∉ f) := by
  constructor
  · intro h
    obtain ⟨p, hp, _, _, _, h1, h2, h3⟩ := appPaths_ok fs _ _ r h
    cases hp
    have hs := stem_no_slash ('/' :: name)
    have hdir : dirName ('/' :: name) = ['/'] := by
      unfold dirName
      rw [show ('/' :: name : Path) = [] ++ '/' :: name from rfl, dirHead_append [] name hn]
      simp
    have key : ∀ n : Path, '/' ∉ n → n ≠ [] → Spec.InFolder [] (joinPath ['/'] n) := by
      intro n h1 h2
      refine ⟨n, h1, h2, ?_⟩
      unfold joinPath
      rw [if_neg (fun h : n.head? = some '/' => h1 (List.mem_of_mem_head? h)), if_pos (by simp)]
      rfl
    rw [Option.getD_none, hdir] at h1 h2 h3
    intro f hf
    simp only [AppPaths.files, List.mem_cons, List.not_mem_nil, or_false] at hf
    rcases hf with rfl | rfl | rfl | rfl
    · rw [h1]; exact key _ (by simp [hs]) (by simp)
    · rw [h2]; exact key _ (by simp [hs]) (by simp)
    · rw [h3, join_plot _ _ _ (by simp [hs]) (by simp)]; exact key _ (by simp [hs]) (by simp)
    · rw [h3, join_plot _ _ _ (by simp [hs]) (by simp)]; exact key _ (by simp [hs]) (by simp)
  · intro h
    obtain ⟨p, hp, _, _, _, h1, h2, h3⟩ := appPaths_ok fs _ _ r h
    cases hp
    have hs := stem_no_slash name
    have key : ∀ n : Path, '/' ∉ n → '/' ∉ joinPath [] n := by
      intro n h1
      unfold joinPath
      rw [if_neg (fun h : n.head? = some '/' => h1 (List.mem_of_mem_head? h)), if_pos (by simp)]
      exact h1
    rw [Option.getD_none, dirName_noSlash name hn] at h1 h2 h3
    intro f hf
    simp only [AppPaths.files, List.mem_cons, List.not_mem_nil, or_false] at hf
    rcases hf with rfl | rfl | rfl | rfl
    · rw [h1]; exact key _ (by simp [hs])
    · rw [h2]; exact key _ (by simp [hs])
    · rw [h3, join_plot _ _ _ (by simp [hs]) (by simp)]; exact key _ (by simp [hs])
    · rw [h3, join_plot _ _ _ (by simp [hs]) (by simp)]; exact key _ (by simp [hs])

/-- **C59** fails for a folder written without trailing slash: the files are always written into its parent. -/
theorem C59_counterexample_general (fs : FileSystem) (pIn d name : Path) (r : AppPaths) (hd : d ≠ []) (hl : d.getLast? ≠ some '/')
    (hn : '/' ∉ name) (h : appPaths fs (some pIn) (some (d ++ '/' :: name)) = .ok r) : ∀ f ∈ r.files, Spec.InFolder d f := by
  refine files_inFolder fs _ _ r d h hd hl ?_
  exact dirName_slash d name (nonslash_of_last d hd hl) hl hn

/-- **C59** The concrete case: folder `/data/out` exists, the results are written to `/data`. -/
theorem C59_counterexample :
    demoFs.isDir "/data/out".toList = true ∧
    (appPaths demoFs (some "/data/a.1.csv".toList) (some "/data/out".toList)).map AppPaths.files =
      .ok (["/data/a_fcast.csv", "/data/a_metadata.csv", "/data/a_fcast.png", "/data/a_fcast.html"].map String.toList) ∧
    (appPaths demoFs (some "/data/a.1.csv".toList) (some "/data/out/".toList)).map AppPaths.files =
      .ok (["/data/out/a_fcast.csv", "/data/out/a_metadata.csv", "/data/out/a_fcast.png", "/data/out/a_fcast.html"].map String.toList) := by
  decide +kernel

/-- **C59** A missing input file, a folder as input or a missing output folder is rejected before anything is read or written. -/
theorem C59_rejects (fs : FileSystem) (pIn pOut : Option Path)
    (h : pIn = none ∨ ∃ p, pIn = some p ∧ (fs.exists_ p = false ∨ fs.isDir p = true ∨ fs.exists_ (pOut.getD p) = false)) :
    appPaths fs pIn pOut = .error .assertionError := by
  rcases h with rfl | ⟨p, rfl, h⟩
  · rfl
  · simp only [appPaths, Bind.bind, Except.bind, pyAssert]
    cases h1 : fs.exists_ p <;> cases h2 : fs.isDir p <;> cases h3 : fs.exists_ (pOut.getD p) <;> simp_all

end Anticipy
