import Verif.Spec.VtxWriter
/-!
# C118: each step of a VTX file shows all functions at their nodes
-/
namespace Verif.Props
open Verif.XdmfText (Text)
open Verif.VtxWriter Verif.Spec.VtxWriter

private theorem lookupVar_eq {T G D : Type} (ps : List (Text × Var T G D)) (n : Text) (v : Var T G D) (h : (n, v) ∈ ps)
    (hc : ∀ p ∈ ps, p.1 = n → p.2 = v) : lookupVar ps n = some v := by
  unfold lookupVar
  have hm : (n, v) ∈ ps.filter (fun p => decide (p.1 = n)) := List.mem_filter.2 ⟨h, by simp⟩
  cases hl : (ps.filter (fun p => decide (p.1 = n))).getLast? with
  | none =>
    rw [List.getLast?_eq_none_iff] at hl
    rw [hl] at hm
    cases hm
  | some x =>
    have hx := List.mem_filter.1 (List.mem_of_getLast? hl)
    show some x.2 = some v
    rw [hc x hx.1 (of_decide_eq_true hx.2)]

private theorem lookupVar_none {T G D : Type} (ps : List (Text × Var T G D)) (n : Text) (hc : ∀ p ∈ ps, p.1 ≠ n) : lookupVar ps n = none := by
  unfold lookupVar
  have : ps.filter (fun p => decide (p.1 = n)) = [] := by
    rw [List.filter_eq_nil_iff]
    intro p hp e
    exact hc p hp (of_decide_eq_true e)
  rw [this]
  rfl

private theorem mem_dataPuts {T G D : Type} (u : List Fn) (c : Call T G D) (x : Text × Var T G D) :
    x ∈ dataPuts u c ↔ ∃ i f p n, u[i]? = some f ∧ (varNames f)[p]? = some n ∧ x = (n, .values (c.val i p)) := by
  unfold dataPuts
  rw [List.mem_flatMap]
  constructor
  · rintro ⟨⟨f, i⟩, h1, h2⟩
    rw [List.mem_map] at h2
    obtain ⟨⟨n, p⟩, h3, rfl⟩ := h2
    exact ⟨i, f, p, n, List.mem_zipIdx_iff_getElem?.1 h1, List.mem_zipIdx_iff_getElem?.1 h3, rfl⟩
  · rintro ⟨i, f, p, n, h1, h2, rfl⟩
    exact ⟨(f, i), List.mem_zipIdx_iff_getElem?.2 h1, List.mem_map.2 ⟨(n, p), List.mem_zipIdx_iff_getElem?.2 h2, rfl⟩⟩

private theorem mesh_name {T G D : Type} (u : List Fn) (update has : Bool) (c : Call T G D) :
    ∀ x ∈ meshPuts u update has c, x.1 = "geometry".toList := by
  intro x hx
  unfold meshPuts at hx
  split at hx
  · rw [List.mem_singleton] at hx
    rw [hx]
  · split at hx
    · split at hx
      · cases hx
      · rw [List.mem_singleton] at hx
        rw [hx]
    · cases hx

private theorem data_name {T G D : Type} (u : List Fn) (hf : Free u) (c : Call T G D) (x : Text × Var T G D) (hx : x ∈ dataPuts u c) :
    x.1 ≠ "step".toList ∧ x.1 ≠ "geometry".toList := by
  obtain ⟨i, f, p, n, h1, h2, rfl⟩ := (mem_dataPuts u c x).1 hx
  exact hf f (List.mem_of_getElem? h1) n (List.mem_of_getElem? h2)

private theorem step_time {T G D : Type} (u : List Fn) (hf : Free u) (update has : Bool) (c : Call T G D) :
    lookupVar (puts u update has c) "step".toList = some (.time c.time) := by
  apply lookupVar_eq
  · exact List.mem_cons_self
  · intro p hp e
    unfold puts at hp
    rw [List.mem_cons, List.mem_append] at hp
    rcases hp with rfl | hp | hp
    · rfl
    · rw [mesh_name u update has c p hp] at e
      exact absurd e (by decide)
    · exact absurd e (data_name u hf c p hp).1

private theorem step_mesh {T G D : Type} (u : List Fn) (hf : Free u) (update has : Bool) (c : Call T G D) :
    lookupVar (puts u update has c) "geometry".toList = (meshPuts u update has c).head?.map (·.2) := by
  have hone : meshPuts u update has c = [] ∨ ∃ v, meshPuts u update has c = [("geometry".toList, v)] := by
    unfold meshPuts
    split
    · exact Or.inr ⟨_, rfl⟩
    · split
      · split
        · exact Or.inl rfl
        · exact Or.inr ⟨_, rfl⟩
      · exact Or.inl rfl
  rcases hone with h | ⟨v, h⟩
  · rw [h]
    apply lookupVar_none
    intro p hp e
    unfold puts at hp
    rw [h, List.mem_cons, List.nil_append] at hp
    rcases hp with rfl | hp
    · exact absurd (show "step".toList = "geometry".toList from e) (by decide)
    · exact (data_name u hf c p hp).2 e
  · rw [h]
    apply lookupVar_eq
    · unfold puts
      rw [h]
      exact List.mem_cons_of_mem _ (List.mem_append_left _ List.mem_cons_self)
    · intro p hp e
      unfold puts at hp
      rw [h, List.mem_cons, List.mem_append, List.mem_singleton] at hp
      rcases hp with rfl | rfl | hp
      · exact absurd (show "step".toList = "geometry".toList from e) (by decide)
      · rfl
      · exact absurd e (data_name u hf c p hp).2

private theorem map_zipIdx {A B : Type} (l : List A) (k : Nat) (f : A → B) (g : A × Nat → B) (h : ∀ x ∈ l.zipIdx k, f x.1 = g x) :
    l.map f = (l.zipIdx k).map g := by
  have : l.map f = (l.zipIdx k).map (fun x => f x.1) := by
    rw [show (fun x : A × Nat => f x.1) = f ∘ Prod.fst from rfl, ← List.map_map, List.zipIdx_map_fst]
  rw [this]
  exact List.map_congr_left h

private theorem step_values {T G D : Type} (u : List Fn) (hf : Free u) (hd : Distinct u) (update has : Bool) (c : Call T G D) :
    u.map (fun f => (varNames f).map (lookupVar (puts u update has c)))
      = u.zipIdx.map (fun x => (varNames x.1).zipIdx.map (fun y => some (.values (c.val x.2 y.2)))) := by
  apply map_zipIdx u 0
  rintro ⟨f, i⟩ hx
  apply map_zipIdx _ 0
  rintro ⟨n, p⟩ hy
  have h1 := List.mem_zipIdx_iff_getElem?.1 hx
  have h2 := List.mem_zipIdx_iff_getElem?.1 hy
  have hfree := hf f (List.mem_of_getElem? h1) n (List.mem_of_getElem? h2)
  apply lookupVar_eq
  · exact List.mem_cons_of_mem _ (List.mem_append_right _ ((mem_dataPuts u c _).2 ⟨i, f, p, n, h1, h2, rfl⟩))
  · intro x hx e
    unfold puts at hx
    rw [List.mem_cons, List.mem_append] at hx
    rcases hx with rfl | hx | hx
    · exact absurd e.symm hfree.1
    · rw [mesh_name u update has c x hx] at e
      exact absurd e.symm hfree.2
    · obtain ⟨j, g, q, m, h3, h4, rfl⟩ := (mem_dataPuts u c x).1 hx
      have e : m = n := e
      rw [e] at h4
      obtain ⟨h5, h6⟩ := hd i j f g p q n h1 h3 h2 h4
      show Var.values (c.val j q) = Var.values (c.val i p)
      rw [h5, h6]

private theorem names_nil (u : List Fn) (h : ∀ f ∈ u, f.cell = true) : pointNames u = [] := by
  unfold pointNames
  have : u.filter (fun f => !f.cell) = [] := by
    rw [List.filter_eq_nil_iff]
    intro f hf
    simp [h f hf]
  rw [this]
  rfl

private theorem names_cons (f : Fn) (u : List Fn) (h : f.cell = false) : pointNames (f :: u) ≠ [] := by
  unfold pointNames
  rw [List.filter_cons_of_pos (by simp [h]), List.flatMap_cons]
  intro e
  have := (List.append_eq_nil_iff.1 e).1
  unfold varNames at this
  split at this <;> cases this

/-- **Steps with the mesh updated**, or with functions all constant on cells: each shows its time, the right nodes with the geometry of that
moment, and all values, if the first function is not constant on cells or all are, and the names are distinct and free.  The full claim has the
condition `accepted u` only: see the refutations. -/
theorem C118_update_partial {T G D : Type} (u : List Fn) (hf : Free u) (hd : Distinct u) (update : Bool)
    (ho : (∃ f us, u = f :: us ∧ f.cell = false ∧ update = true) ∨ ∀ f ∈ u, f.cell = true) (calls : List (Call T G D)) (has : Bool)
    (cur : Option (Var T G D)) : AllShow u (·.geom) calls (readFrom u cur (runFrom u update has calls)) := by
  induction calls generalizing has cur with
  | nil => trivial
  | cons c cs ih =>
    refine ⟨⟨step_time u hf update has c, ?_, step_values u hf hd update has c⟩, ih true _⟩
    show ∃ v, (lookupVar (puts u update has c) "geometry".toList).or cur = some v ∧ _
    rw [step_mesh u hf]
    rcases ho with ⟨f, us, rfl, h, h'⟩ | h
    · refine ⟨.dofNodes f c.geom, ?_, Or.inl ⟨f, List.mem_cons_self, h, rfl⟩⟩
      unfold meshPuts
      rw [if_neg (names_cons f us h), if_pos (Or.inl h')]
      rfl
    · refine ⟨.meshNodes c.geom, ?_, Or.inr ⟨h, rfl⟩⟩
      unfold meshPuts
      rw [if_pos (names_nil u h)]
      rfl

/-- **Steps with the mesh reused**: each shows its time, the right nodes with the geometry of the first step, and all values. -/
theorem C118_reuse_partial {T G D : Type} (f : Fn) (us : List Fn) (h : f.cell = false) (hf : Free (f :: us)) (hd : Distinct (f :: us))
    (c0 : Call T G D) (calls : List (Call T G D)) :
    AllShow (f :: us) (fun _ => c0.geom) (c0 :: calls) (readFrom (f :: us) none (runFrom (f :: us) false false (c0 :: calls))) := by
  have first : (meshPuts (f :: us) false false c0).head?.map (·.2) = some (.dofNodes f c0.geom) := by
    unfold meshPuts
    rw [if_neg (names_cons f us h), if_pos (Or.inr rfl)]
    rfl
  have later : ∀ c : Call T G D, (meshPuts (f :: us) false true c).head?.map (·.2) = none := by
    intro c
    unfold meshPuts
    rw [if_neg (names_cons f us h), if_neg (by decide)]
    rfl
  have tail : ∀ cs : List (Call T G D),
      AllShow (f :: us) (fun _ => c0.geom) cs (readFrom (f :: us) (some (.dofNodes f c0.geom)) (runFrom (f :: us) false true cs)) := by
    intro cs
    induction cs with
    | nil => trivial
    | cons c cs ih =>
      have hm : (lookupVar (puts (f :: us) false true c) "geometry".toList).or (some (.dofNodes f c0.geom)) = some (.dofNodes f c0.geom) := by
        rw [step_mesh _ hf, later]
        rfl
      refine ⟨⟨step_time _ hf _ _ c, ⟨_, hm, Or.inl ⟨f, List.mem_cons_self, h, rfl⟩⟩, step_values _ hf hd _ _ c⟩, ?_⟩
      rw [hm]
      exact ih
  have hm : (lookupVar (puts (f :: us) false false c0) "geometry".toList).or none = some (.dofNodes f c0.geom) := by
    rw [step_mesh _ hf, first]
    rfl
  refine ⟨⟨step_time _ hf _ _ c0, ⟨_, hm, Or.inl ⟨f, List.mem_cons_self, h, rfl⟩⟩, step_values _ hf hd _ _ c0⟩, ?_⟩
  rw [hm]
  exact tail calls

/-- A function that is constant on cells before another that is not: accepted, with distinct names, and the nodes are the dofs of the first,
one for each cell. -/
theorem C118_refuted_order :
    let a : Fn := ⟨['a'], true, false, 0⟩
    let b : Fn := ⟨['b'], false, false, 1⟩
    accepted [a, b] = true
    ∧ (readFrom [a, b] none (runFrom [a, b] true false [(⟨0, 5, fun i _ => 10 + i⟩ : Call Nat Nat Nat)])).map (·.2.1) = [some (.dofNodes a 5)]
    ∧ ¬ RightNodes (T := Nat) (D := Nat) [a, b] 5 (.dofNodes a 5) := by
  refine ⟨by decide, by decide, ?_⟩
  rintro (⟨f, hf, h1, h2⟩ | ⟨_, h⟩)
  · cases h2
    cases h1
  · cases h

/-- Two functions that are constant on cells, both with the default name: accepted, and both show the values of the second. -/
theorem C118_refuted_names :
    let a : Fn := ⟨['f'], true, false, 0⟩
    accepted [a, a] = true
    ∧ (readFrom [a, a] none (runFrom [a, a] true false [(⟨0, 5, fun i _ => 10 + i⟩ : Call Nat Nat Nat)])).map (·.2.2)
        = [[[some (.values 11)], [some (.values 11)]]] := by decide

/-- **Components**: a complex function has two variables and a real one has one, with different names that begin with its name. -/
theorem C118_components (f : Fn) : (varNames f).length = (if f.cplx = true then 2 else 1) ∧ (varNames f).Nodup
    ∧ ∀ n ∈ varNames f, f.name <+: n := by
  unfold varNames
  split
  · refine ⟨rfl, ?_, ?_⟩
    · rw [List.nodup_cons]
      refine ⟨?_, by simp⟩
      rw [List.mem_singleton]
      intro e
      exact absurd (List.append_cancel_left e) (by decide)
    · intro n hn
      rw [List.mem_cons, List.mem_singleton] at hn
      rcases hn with rfl | rfl <;> exact List.prefix_append _ _
  · refine ⟨rfl, by simp, ?_⟩
    intro n hn
    rw [List.mem_singleton] at hn
    rw [hn]
    exact List.prefix_rfl

/-- The checks do find functions that are not constant on cells with the same name or different elements. -/
theorem C118_checked (u : List Fn) (h : accepted u = true) : (pointNames u).Nodup
    ∧ ∀ f ∈ u, ∀ g ∈ u, f.cell = false → g.cell = false → f.elem = g.elem := by
  unfold accepted at h
  split at h
  · cases h
  · next f0 _ =>
    rw [Bool.and_eq_true, List.all_eq_true] at h
    refine ⟨of_decide_eq_true h.2, ?_⟩
    intro f hf g hg h1 h2
    have h3 := h.1 f hf
    have h4 := h.1 g hg
    rw [h1, Bool.false_or, beq_iff_eq] at h3
    rw [h2, Bool.false_or, beq_iff_eq] at h4
    rw [h3, h4]

example :
    let a : Fn := ⟨['a'], false, false, 1⟩
    let b : Fn := ⟨['b'], true, true, 0⟩
    readFrom [a, b] none (runFrom [a, b] false false [(⟨0, 5, fun i p => 10 * i + p⟩ : Call Nat Nat Nat), ⟨1, 6, fun i p => 10 * i + p + 100⟩])
      = [(some (.time 0), some (.dofNodes a 5), [[some (.values 0)], [some (.values 10), some (.values 11)]]),
         (some (.time 1), some (.dofNodes a 5), [[some (.values 100)], [some (.values 110), some (.values 111)]])] := rfl

example : Free [⟨['a'], false, false, 1⟩, ⟨['b'], true, true, 0⟩] ∧ Distinct [⟨['a'], false, false, 1⟩, ⟨['b'], true, true, 0⟩] := by
  constructor
  · unfold Free
    decide
  · intro i j f g p q n h1 h2 h3 h4
    rcases i with _ | _ | i <;> rcases j with _ | _ | j <;> simp at h1 h2 <;> subst h1 <;> subst h2 <;>
      rcases p with _ | _ | p <;> rcases q with _ | _ | q <;> simp [varNames] at h3 h4 <;> subst h3 <;> simp_all

end Verif.Props
