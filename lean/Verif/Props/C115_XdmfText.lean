import Verif.Spec.XdmfText
/-!
# C115: texts in XDMF files lead back to the data
-/
namespace Verif.Props
open Verif.XdmfText Verif.Spec.XdmfText

private theorem split_ne (p : Char → Bool) (t : Text) : splitAt p t ≠ [] := by
  cases t with
  | nil => simp [splitAt]
  | cons c l =>
    unfold splitAt
    split
    · simp
    · split <;> simp

private theorem split_word (p : Char → Bool) (w : Text) (h : ∀ c ∈ w, p c = false) : splitAt p w = [w] := by
  induction w with
  | nil => rfl
  | cons c w ih =>
    have h1 := h c List.mem_cons_self
    unfold splitAt
    rw [if_neg (by simp [h1]), ih (fun x hx => h x (List.mem_cons_of_mem _ hx))]

private theorem split_sep (p : Char → Bool) (w : Text) (s : Char) (t : Text) (h : ∀ c ∈ w, p c = false) (hs : p s = true) :
    splitAt p (w ++ s :: t) = w :: splitAt p t := by
  induction w with
  | nil => simp [splitAt, hs]
  | cons c w ih =>
    have h1 := h c List.mem_cons_self
    rw [List.cons_append]
    rw [splitAt, if_neg (by simp [h1]), ih (fun x hx => h x (List.mem_cons_of_mem _ hx))]

private theorem split_length (p : Char → Bool) (t : Text) : (splitAt p t).length = t.countP p + 1 := by
  induction t with
  | nil => rfl
  | cons c t ih =>
    rw [splitAt]
    by_cases h : p c = true
    · rw [if_pos h, List.countP_cons_of_pos h]
      simp [ih]
    · rw [if_neg h, List.countP_cons_of_neg h]
      cases hs : splitAt p t with
      | nil => exact absurd hs (split_ne p t)
      | cons w ws => rw [hs] at ih; simpa using ih

private theorem mapM_cons' {A B : Type} (f : A → Option B) (a : A) (l : List A) (b : B) (m : List B) (h : f a = some b) (hl : l.mapM f = some m) :
    (a :: l).mapM f = some (b :: m) := by
  rw [List.mapM_cons, h, hl]
  rfl

private theorem dims_aux {fmt : Int → Text} {parse : Text → Option Int} (hn : Numbers fmt parse) (d : Int) (shape : List Int) :
    readDims parse (writeDims fmt (d :: shape)) = some (d :: shape) := by
  induction shape generalizing d with
  | nil =>
    unfold readDims writeDims
    have : (List.flatMap (fun d => fmt d ++ [' ']) [d]).dropLast = fmt d := by simp
    rw [this, split_word _ _ (fun c hc => by
      have := (hn.word d).1
      simp only [beq_eq_false_iff_ne, ne_eq]
      rintro rfl
      exact this hc)]
    exact mapM_cons' _ _ _ _ _ (hn.back d) rfl
  | cons e shape ih =>
    have h := ih e
    unfold readDims at h ⊢
    have e1 : writeDims fmt (d :: e :: shape) = fmt d ++ ' ' :: writeDims fmt (e :: shape) := by
      unfold writeDims
      rw [List.flatMap_cons, List.append_assoc, List.singleton_append]
      have ne : List.flatMap (fun d => fmt d ++ [' ']) (e :: shape) ≠ [] := by simp
      rw [List.dropLast_append_of_ne_nil (by simp), List.dropLast_cons_of_ne_nil ne]
    rw [e1, split_sep _ _ _ _ (fun c hc => by
      have := (hn.word d).1
      simp only [beq_eq_false_iff_ne, ne_eq]
      rintro rfl
      exact this hc) (by decide)]
    exact mapM_cons' _ _ _ _ _ (hn.back d) h

/-- **Shapes** that are written are read back. -/
theorem C115_dims (fmt : Int → Text) (parse : Text → Option Int) (hn : Numbers fmt parse) (shape : List Int) (h : shape ≠ []) :
    readDims parse (writeDims fmt shape) = some shape := by
  cases shape with
  | nil => exact absurd rfl h
  | cons d shape => exact dims_aux hn d shape

private theorem sep_cases (m i : Nat) : separator m i = ' ' ∨ separator m i = '\n' := by
  unfold separator
  split
  · exact Or.inr rfl
  · exact Or.inl rfl

/-- **Numbers in the XML format** are read back, in rows of any length, if each single number is (integers; for floating point numbers see
`C74_refuted_xml`). -/
theorem C115_xml {T : Type} (fmt : T → Text) (parse : Text → Option T) (hn : Numbers fmt parse) (m : Nat) (l : List T) :
    readXml parse (writeXml fmt m 0 l) = some l := by
  have key : ∀ i, readXml parse (writeXml fmt m i l) = some l := by
    induction l with
    | nil => intro i; rfl
    | cons x l ih =>
      intro i
      have h := ih (i + 1)
      unfold readXml at h ⊢
      rw [writeXml, split_sep _ _ _ _ (fun c hc => by
        have h1 := hn.word x
        simp only [Bool.or_eq_false_iff, beq_eq_false_iff_ne, ne_eq]
        exact ⟨by rintro rfl; exact h1.1 hc, by rintro rfl; exact h1.2 hc⟩)
        (by rcases sep_cases m i with e | e <;> rw [e] <;> decide)]
      rw [List.filter_cons_of_pos (by
        cases hx : fmt x with
        | nil => exact absurd hx (hn.some x)
        | cons a b => rfl)]
      exact mapM_cons' _ _ _ _ _ (hn.back x) h
  exact key 0

private theorem dropWhile_app (p : Char → Bool) (a : Text) (c : Char) (b : Text) (hc : p c = false) :
    (a ++ c :: b).dropWhile p = a.dropWhile p ++ c :: b := by
  induction a with
  | nil => simp [List.dropWhile, hc]
  | cons x a ih =>
    rw [List.cons_append, List.dropWhile_cons, List.dropWhile_cons, ih]
    split <;> rfl

private theorem trim_path (file path : Text) (he : EndsWell path) : trim (writePath file path) = file.dropWhile isBlank ++ ':' :: path := by
  obtain ⟨q, c, rfl, hc⟩ := he
  unfold trim writePath
  rw [dropWhile_app _ _ _ _ (by decide)]
  have hb : isBlank c = false := by
    simp only [List.mem_cons, List.not_mem_nil, or_false, not_or] at hc
    simp [isBlank, hc]
  have e : (file.dropWhile isBlank ++ ':' :: (q ++ [c])).reverse = c :: (file.dropWhile isBlank ++ ':' :: q).reverse := by simp
  rw [e, List.dropWhile_cons, if_neg (by simp [hb])]
  simp

private theorem count_dropWhile (f : Text) : (f.dropWhile isBlank).countP (· == ':') = f.countP (· == ':') := by
  induction f with
  | nil => rfl
  | cons c f ih =>
    rw [List.dropWhile_cons]
    split
    · next h =>
      rw [ih, List.countP_cons_of_neg]
      intro e
      rw [beq_iff_eq] at e
      subst e
      exact absurd h (by decide)
    · rfl

/-- **Paths**: the path in the HDF5 file that is written is read back if and only if neither it nor the name of the file has a colon.  The
full claim has no such condition: see `C115_refuted_colon`. -/
theorem C115_path_partial (file path : Text) (he : EndsWell path) :
    (∃ a, readPath (writePath file path) = some (a, path)) ↔ ':' ∉ file ∧ ':' ∉ path := by
  unfold readPath
  rw [trim_path file path he]
  constructor
  · rintro ⟨a, ha⟩
    have hl := split_length (· == ':') (file.dropWhile isBlank ++ ':' :: path)
    split at ha
    · next x y hs =>
      rw [hs, List.countP_append, List.countP_cons_of_pos (by decide), count_dropWhile] at hl
      simp only [List.length_cons, List.length_nil] at hl
      have h1 : file.countP (· == ':') = 0 := by omega
      have h2 : path.countP (· == ':') = 0 := by omega
      rw [List.countP_eq_zero] at h1 h2
      exact ⟨fun h => h1 _ h (by decide), fun h => h2 _ h (by decide)⟩
    · cases ha
  · rintro ⟨h1, h2⟩
    refine ⟨file.dropWhile isBlank, ?_⟩
    rw [split_sep _ _ _ _ (fun c hc => by
      simp only [beq_eq_false_iff_ne, ne_eq]
      rintro rfl
      exact h1 ((List.dropWhile_sublist _).subset hc)) (by decide), split_word _ path (fun c hc => by
      simp only [beq_eq_false_iff_ne, ne_eq]
      rintro rfl
      exact h2 hc)]

/-- A mesh with the name `a:b` is written and cannot be read. -/
theorem C115_refuted_colon : EndsWell "/Mesh/a:b/topology".toList
    ∧ readPath (writePath "mesh.h5".toList "/Mesh/a:b/topology".toList) = none :=
  ⟨⟨"/Mesh/a:b/topolog".toList, 'y', by decide, by decide⟩, by decide⟩

private theorem dropWhile_all (p : Char → Bool) (l : Text) (h : ∀ c ∈ l, p c = true) : l.dropWhile p = [] := by
  induction l with
  | nil => rfl
  | cons c l ih =>
    rw [List.dropWhile_cons, if_pos (h c List.mem_cons_self)]
    exact ih (fun x hx => h x (List.mem_cons_of_mem _ hx))

private theorem stem_ext (s e : Text) (hs : s ≠ []) (he : '.' ∉ e) : stem (s ++ '.' :: e) = s := by
  unfold stem
  have h1 : (s ++ '.' :: e).reverse = e.reverse ++ '.' :: s.reverse := by simp
  have h2 : e.reverse.dropWhile (· != '.') = [] := by
    apply dropWhile_all
    intro c hc
    rw [List.mem_reverse] at hc
    simp only [bne_iff_ne, ne_eq]
    rintro rfl
    exact he hc
  rw [h1, dropWhile_app _ _ _ _ (by decide), h2, List.nil_append]
  cases hr : s.reverse with
  | nil => exact absurd (List.reverse_eq_nil_iff.1 hr) hs
  | cons a b =>
    show (a :: b).reverse = s
    rw [← hr, List.reverse_reverse]

/-- **Names of HDF5 files**: `name.xdmf` goes with `name.h5`, for every name, so files with different names do not share it (`C115_h5name_inj_partial`).  The full claim
is for all extensions: see `C115_refuted_clash`. -/
theorem C115_h5name_partial (s : Text) (hs : s ≠ []) : h5Name (s ++ ".xdmf".toList) = some (s ++ ".h5".toList) := by
  unfold h5Name
  have h1 : stem (s ++ ".xdmf".toList) = s := stem_ext s "xdmf".toList hs (by decide)
  simp only
  rw [h1, if_neg]
  · rfl
  · intro h
    have := List.append_cancel_left h
    exact absurd this (by decide)

/-- Files `name.xdmf` with different names have different HDF5 files. -/
theorem C115_h5name_inj_partial (s t : Text) (hs : s ≠ []) (ht : t ≠ []) (h : h5Name (s ++ ".xdmf".toList) = h5Name (t ++ ".xdmf".toList)) :
    s = t := by
  rw [C115_h5name_partial s hs, C115_h5name_partial t ht, Option.some.injEq] at h
  exact List.append_cancel_right h

/-- Files that are named by number share one HDF5 file. -/
theorem C115_refuted_clash : h5Name "run.1".toList = h5Name "run.2".toList ∧ h5Name "run.1".toList = some "run.h5".toList := by decide

/-- Numbers in unary, for the examples. -/
private def exFmt (n : Nat) : Text := List.replicate (n + 1) 'I'

private def exParse (t : Text) : Option Nat := some (t.length - 1)

example : Numbers exFmt exParse := by
  refine ⟨fun x => by simp [exFmt, exParse], fun x => ⟨fun h => ?_, fun h => ?_⟩, fun x => by simp [exFmt]⟩
  · exact absurd (List.eq_of_mem_replicate h) (by decide)
  · exact absurd (List.eq_of_mem_replicate h) (by decide)

example : writeXml exFmt 2 0 [0, 2, 1] = "I III\nII ".toList ∧ readXml exParse "I III\nII ".toList = some [0, 2, 1] := by decide

example : readPath (writePath "mesh.h5".toList "/Mesh/mesh/topology".toList) = some ("mesh.h5".toList, "/Mesh/mesh/topology".toList) := by decide

end Verif.Props
