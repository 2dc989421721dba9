import Verif.Spec.XdmfNames
/-!
# C119: what is in an XDMF file is found by its name
-/
namespace Verif.Props
open Verif.XdmfText (Text)
open Verif.XdmfNames Verif.Spec.XdmfNames

private theorem find_append_some {A : Type} (p : A → Bool) (l m : List A) (a : A) (h : l.find? p = some a) : (l ++ m).find? p = some a := by
  rw [List.find?_append, h]
  rfl

private theorem find_append_none {A : Type} (p : A → Bool) (l m : List A) (h : l.find? p = none) : (l ++ m).find? p = m.find? p := by
  rw [List.find?_append, h]
  rfl

private theorem collection_cases (n : Text) (gs : List Grid) : withCollection n gs = gs ∨ withCollection n gs = gs ++ [⟨n, none, none, none⟩] := by
  unfold withCollection
  split
  · exact Or.inl rfl
  · exact Or.inr rfl

/-- The grids after a call are those before and at most one more, with the name used. -/
private theorem step_grids {D : Type} (f : File D) (op : Op D) : (step f op).grids = f.grids
    ∨ ∃ g, (step f op).grids = f.grids ++ [g] ∧ Uses g.name op := by
  cases op with
  | mesh n t g => exact Or.inr ⟨_, rfl, rfl⟩
  | geometry n g => exact Or.inr ⟨_, rfl, rfl⟩
  | tags n t v => exact Or.inr ⟨_, rfl, rfl⟩
  | function n v =>
    rcases collection_cases n f.grids with h | h
    · exact Or.inl h
    · exact Or.inr ⟨_, h, rfl⟩
  | info n v => exact Or.inl rfl

private theorem put_other {D : Type} (h : Path → Option D) (p q : Path) (d : D) (hn : q.name ≠ p.name) : put h p d q = h q := by
  unfold put
  rw [if_neg]
  intro e
  exact hn (by rw [e])

private theorem step_h5 {D : Type} (f : File D) (op : Op D) (q : Path) (hq : ¬ Uses q.name op) : (step f op).h5 q = f.h5 q := by
  cases op with
  | mesh n t g =>
    have h : q.name ≠ n := fun e => hq e.symm
    show put (put _ _ _) _ _ q = _
    rw [put_other _ _ _ _ h, put_other _ _ _ _ h]
  | geometry n g => exact put_other _ _ _ _ (fun e => hq e.symm)
  | tags n t v =>
    have h : q.name ≠ n := fun e => hq e.symm
    show put (put _ _ _) _ _ q = _
    rw [put_other _ _ _ _ h, put_other _ _ _ _ h]
  | function n v => exact put_other _ _ _ _ (fun e => hq e.symm)
  | info n v => rfl

private theorem fold_none {D : Type} (n : Text) (ops : List (Op D)) (h : ∀ op ∈ ops, ¬ Uses n op) (f : File D) (hf : findGrid f n = none) :
    findGrid (ops.foldl step f) n = none := by
  induction ops generalizing f with
  | nil => exact hf
  | cons op ops ih =>
    apply ih (fun o ho => h o (List.mem_cons_of_mem _ ho))
    have h0 := h op List.mem_cons_self
    unfold findGrid at hf ⊢
    rcases step_grids f op with e | ⟨g, e, hu⟩
    · rw [e, hf]
    · rw [e, find_append_none _ _ _ hf, List.find?_cons_of_neg]
      · rfl
      · intro hg
        have hg := of_decide_eq_true hg
        rw [hg] at hu
        exact h0 hu

private theorem fold_keep {D : Type} (n : Text) (ops : List (Op D)) (h : ∀ op ∈ ops, ¬ Uses n op) (f : File D) (g : Grid)
    (hf : findGrid f n = some g) :
    findGrid (ops.foldl step f) n = some g ∧ ∀ q : Path, q.name = n → (ops.foldl step f).h5 q = f.h5 q := by
  induction ops generalizing f with
  | nil => exact ⟨hf, fun _ _ => rfl⟩
  | cons op ops ih =>
    have h0 := h op List.mem_cons_self
    have hs : findGrid (step f op) n = some g := by
      unfold findGrid at hf ⊢
      rcases step_grids f op with e | ⟨g', e, _⟩
      · rw [e, hf]
      · rw [e]
        exact find_append_some _ _ _ _ hf
    obtain ⟨h1, h2⟩ := ih (fun o ho => h o (List.mem_cons_of_mem _ ho)) (step f op) hs
    refine ⟨h1, fun q hq => ?_⟩
    rw [List.foldl_cons, h2 q hq]
    exact step_h5 f op q (by rw [hq]; exact h0)

private theorem run_split {D : Type} (pre post : List (Op D)) (op : Op D) :
    run (pre ++ op :: post) = post.foldl step (step (run pre) op) := by
  unfold run
  rw [List.foldl_append]
  rfl

private theorem kind_mesh : Kind.text .mesh = ['/', 'M', 'e', 's', 'h', '/'] := by decide
private theorem kind_meshTags : Kind.text .meshTags = ['/', 'M', 'e', 's', 'h', 'T', 'a', 'g', 's', '/'] := by decide
private theorem kind_geometry : Kind.text .geometry = ['/', 'G', 'e', 'o', 'm', 'e', 't', 'r', 'y', '/'] := by decide
private theorem kind_function : Kind.text .function = ['/', 'F', 'u', 'n', 'c', 't', 'i', 'o', 'n', '/'] := by decide
private theorem last_topology : Last.text .topology = ['/', 't', 'o', 'p', 'o', 'l', 'o', 'g', 'y'] := by decide
private theorem last_geometry : Last.text .geometry = ['/', 'g', 'e', 'o', 'm', 'e', 't', 'r', 'y'] := by decide
private theorem last_values : Last.text .values = ['/', 'V', 'a', 'l', 'u', 'e', 's'] := by decide

/-- Different arrays have different paths as texts, whatever the names. -/
theorem C119_paths (p q : Path) (h : p.text = q.text) : p = q := by
  obtain ⟨k, n, l⟩ := p
  obtain ⟨k', n', l'⟩ := q
  unfold Path.text at h
  have hk : k = k' := by
    cases k <;> cases k' <;> first | exact Eq.refl _ | (exfalso; simp [kind_mesh, kind_meshTags, kind_geometry, kind_function] at h; done)
  subst hk
  simp only [List.append_assoc] at h
  have h := List.append_cancel_left h
  have hl : l = l' := by
    have hr := congrArg List.reverse h
    simp only [List.reverse_append] at hr
    cases l <;> cases l' <;> first | exact Eq.refl _ | (exfalso; simp [last_topology, last_geometry, last_values] at hr; done)
  subst hl
  rw [List.append_cancel_right h]

example : (⟨.mesh, "a/geometry".toList, .topology⟩ : Path).text ≠ (⟨.mesh, "a".toList, .geometry⟩ : Path).text := by decide

/-- **Meshes**: a mesh whose name nothing else has is read as it was written, whatever is written before and after.  The full claim is for any
names: see the refutations. -/
theorem C119_mesh_partial {D : Type} (pre post : List (Op D)) (n : Text) (t g : D) (h1 : ∀ op ∈ pre, ¬ Uses n op) (h2 : ∀ op ∈ post, ¬ Uses n op) :
    readMesh (run (pre ++ .mesh n t g :: post)) n = some (t, g) := by
  have h0 := fold_none n pre h1 File.empty rfl
  have hs : findGrid (step (run pre) (.mesh n t g)) n = some ⟨n, some ⟨.mesh, n, .topology⟩, some ⟨.mesh, n, .geometry⟩, none⟩ := by
    unfold findGrid at h0 ⊢
    show List.find? _ ((run pre).grids ++ _) = _
    unfold run
    rw [find_append_none _ _ _ h0]
    simp
  obtain ⟨h3, h4⟩ := fold_keep n post h2 _ _ hs
  rw [run_split]
  unfold readMesh dataAt
  rw [h3]
  simp only [Option.bind_some]
  rw [h4 _ rfl, h4 _ rfl]
  simp [step, put]

/-- **Tags**: likewise. -/
theorem C119_tags_partial {D : Type} (pre post : List (Op D)) (n : Text) (t v : D) (h1 : ∀ op ∈ pre, ¬ Uses n op) (h2 : ∀ op ∈ post, ¬ Uses n op) :
    readTags (run (pre ++ .tags n t v :: post)) n = some (t, v) := by
  have h0 := fold_none n pre h1 File.empty rfl
  have hs : findGrid (step (run pre) (.tags n t v)) n = some ⟨n, some ⟨.meshTags, n, .topology⟩, none, some ⟨.meshTags, n, .values⟩⟩ := by
    unfold findGrid at h0 ⊢
    show List.find? _ ((run pre).grids ++ _) = _
    unfold run
    rw [find_append_none _ _ _ h0]
    simp
  obtain ⟨h3, h4⟩ := fold_keep n post h2 _ _ hs
  rw [run_split]
  unfold readTags dataAt
  rw [h3]
  simp only [Option.bind_some]
  rw [h4 _ rfl, h4 _ rfl]
  simp [step, put]

/-- **Geometries**: likewise. -/
theorem C119_geometry_partial {D : Type} (pre post : List (Op D)) (n : Text) (x : D) (h1 : ∀ op ∈ pre, ¬ Uses n op) (h2 : ∀ op ∈ post, ¬ Uses n op) :
    readGeometry (run (pre ++ .geometry n x :: post)) n = some x := by
  have h0 := fold_none n pre h1 File.empty rfl
  have hs : findGrid (step (run pre) (.geometry n x)) n = some ⟨n, none, some ⟨.geometry, n, .geometry⟩, none⟩ := by
    unfold findGrid at h0 ⊢
    show List.find? _ ((run pre).grids ++ _) = _
    unfold run
    rw [find_append_none _ _ _ h0]
    simp
  obtain ⟨h3, h4⟩ := fold_keep n post h2 _ _ hs
  rw [run_split]
  unfold readGeometry dataAt
  rw [h3]
  simp only [Option.bind_some]
  rw [h4 _ rfl]
  simp [step, put]

/-- Nothing is found under a name that nothing has. -/
theorem C119_absent {D : Type} (ops : List (Op D)) (n : Text) (h : ∀ op ∈ ops, ¬ Uses n op) :
    readMesh (run ops) n = none ∧ readTags (run ops) n = none ∧ readGeometry (run ops) n = none := by
  have h0 : findGrid (run ops) n = none := fold_none n ops h File.empty rfl
  unfold readMesh readTags readGeometry
  rw [h0]
  exact ⟨rfl, rfl, rfl⟩

private theorem step_infos {D : Type} (f : File D) (op : Op D) (n : Text) (h : ¬ Informs n op) :
    (step f op).infos = f.infos ∨ ∃ m v, m ≠ n ∧ (step f op).infos = f.infos ++ [(m, v)] := by
  cases op with
  | info m v => exact Or.inr ⟨m, v, h, rfl⟩
  | mesh _ _ _ => exact Or.inl rfl
  | geometry _ _ => exact Or.inl rfl
  | tags _ _ _ => exact Or.inl rfl
  | function _ _ => exact Or.inl rfl

private theorem fold_info {D : Type} (ops : List (Op D)) (f : File D) : ∃ l, (ops.foldl step f).infos = f.infos ++ l := by
  induction ops generalizing f with
  | nil => exact ⟨[], by simp⟩
  | cons op ops ih =>
    obtain ⟨l, hl⟩ := ih (step f op)
    rw [List.foldl_cons, hl]
    cases op with
    | info m v => exact ⟨(m, v) :: l, by simp [step]⟩
    | mesh _ _ _ => exact ⟨l, rfl⟩
    | geometry _ _ => exact ⟨l, rfl⟩
    | tags _ _ _ => exact ⟨l, rfl⟩
    | function _ _ => exact ⟨l, rfl⟩

private theorem fold_info_none {D : Type} (n : Text) (ops : List (Op D)) (h : ∀ op ∈ ops, ¬ Informs n op) (f : File D)
    (hf : f.infos.find? (fun i => decide (i.1 = n)) = none) : (ops.foldl step f).infos.find? (fun i => decide (i.1 = n)) = none := by
  induction ops generalizing f with
  | nil => exact hf
  | cons op ops ih =>
    apply ih (fun o ho => h o (List.mem_cons_of_mem _ ho))
    rcases step_infos f op n (h op List.mem_cons_self) with e | ⟨m, v, hm, e⟩
    · rw [e, hf]
    · rw [e, find_append_none _ _ _ hf, List.find?_cons_of_neg]
      · rfl
      · simp [hm]

/-- **Information** is that of the *first* call with the name, whatever is written before and after; it should be that of the last: see
`C119_refuted_info`. -/
theorem C119_info_partial {D : Type} (pre post : List (Op D)) (n v : Text) (h1 : ∀ op ∈ pre, ¬ Informs n op) :
    readInfo (run (pre ++ .info n v :: post)) n = some v := by
  have h0 := fold_info_none n pre h1 File.empty rfl
  rw [run_split]
  obtain ⟨l, hl⟩ := fold_info post (step (run pre) (.info n v))
  unfold readInfo
  rw [hl]
  show Option.map _ (List.find? _ (((run pre).infos ++ [(n, v)]) ++ l)) = _
  have h2 : ((run pre).infos ++ [(n, v)]).find? (fun i => decide (i.1 = n)) = some (n, v) := by
    unfold run
    rw [find_append_none _ _ _ h0]
    simp
  rw [find_append_some _ _ _ _ h2]
  rfl

/-- Two tags with the default name: what is read is neither an error nor the first; the arrays of the first are gone. -/
theorem C119_refuted_tags :
    let f := run [.mesh "mesh".toList 1 2, .tags "mesh_tags".toList 3 4, (.tags "mesh_tags".toList 5 6 : Op Nat)]
    readTags f "mesh_tags".toList = some (5, 6) ∧ (∀ p, f.h5 p ≠ some 3) ∧ ∀ p, f.h5 p ≠ some 4 := by
  refine ⟨by decide, ?_, ?_⟩
  all_goals
    intro p
    simp only [run, List.foldl_cons, List.foldl_nil, step, put, File.empty]
    repeat' split
    all_goals simp_all

/-- A function with the name of a mesh that is written after it: the mesh cannot be read. -/
theorem C119_refuted_function :
    readMesh (run [.function "mesh".toList 7, (.mesh "mesh".toList 1 2 : Op Nat)]) "mesh".toList = none := by decide

/-- Information that is written again: the old value is read. -/
theorem C119_refuted_info :
    readInfo (run [.info "time".toList "0".toList, (.info "time".toList "1".toList : Op Nat)]) "time".toList = some "0".toList := by decide

example :
    let f := run [.mesh "mesh".toList 1 2, .tags "cells".toList 3 4, .function "f".toList 9, (.tags "facets".toList 5 6 : Op Nat)]
    readMesh f "mesh".toList = some (1, 2) ∧ readTags f "cells".toList = some (3, 4) ∧ readTags f "facets".toList = some (5, 6)
    ∧ readMesh f "cells".toList = none ∧ readTags f "edges".toList = none := by decide

example : readGeometry (run [.mesh "mesh".toList 1 2, .geometry "x".toList 8, (.info "x".toList "y".toList : Op Nat)]) "x".toList = some 8 := by decide

end Verif.Props
