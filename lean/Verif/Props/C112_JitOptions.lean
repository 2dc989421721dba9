import Verif.Spec.JitOptions
/-!
# C112: which options just-in-time compilation uses
-/
namespace Verif.Props
open Verif.JitOptions Verif.Spec.JitOptions

private theorem getD_app {α : Type} (l m : List α) (x : α) (i : Nat) (h : i < l.length) : (l ++ m).getD i x = l.getD i x := by
  rw [List.getD_eq_getElem?_getD, List.getD_eq_getElem?_getD, List.getElem?_append_left h]

private theorem look_append {α : Type} (d e : List (String × α)) (k : String) : look (d ++ e) k = (look e k).or (look d k) := by
  induction d with
  | nil => simp [look]
  | cons x d ih =>
    obtain ⟨a, v⟩ := x
    simp only [List.cons_append, look, ih]
    rw [Option.or_assoc]

private theorem look_filter (d : Dict) (k j : String) (h : j ≠ k) :
    look (d.filter (fun kv => decide (kv.1 ≠ k))) j = look d j := by
  induction d with
  | nil => rfl
  | cons x d ih =>
    obtain ⟨a, v⟩ := x
    rw [List.filter_cons]
    by_cases ha : a = k
    · rw [if_neg (by simp [ha]), ih]
      simp only [look]
      rw [if_neg (fun e : a = j => h (e.symm.trans ha)), Option.or_none]
    · rw [if_pos (by simp [ha])]
      simp only [look, ih]

private theorem look_put (d : Dict) (k j : String) (v : Val) : look (dictPut d k v) j = if k = j then some v else look d j := by
  unfold dictPut
  rw [look_append]
  by_cases h : k = j
  · simp [look, h]
  · rw [look_filter d k j (Ne.symm h)]
    simp [look, h]

private theorem look_update (d e : Dict) (k : String) : look (update d e) k = (look e k).or (look d k) := by
  induction e generalizing d with
  | nil => simp [update, look]
  | cons x e ih =>
    obtain ⟨a, v⟩ := x
    have h : update d ((a, v) :: e) = update (dictPut d a v) e := rfl
    rw [h, ih, look_put]
    simp only [look]
    rw [Option.or_assoc]
    congr 1
    split <;> simp

private theorem lastVal_look (l : JDict) (k : String) : lastVal l k = look l k := by
  induction l with
  | nil => rfl
  | cons x l ih =>
    obtain ⟨a, v⟩ := x
    unfold lastVal at ih ⊢
    rw [List.reverse_cons, List.find?_append]
    simp only [look]
    rw [← ih]
    by_cases h : a = k
    · cases (List.find? (fun kv : String × JVal => kv.1 == k) l.reverse) <;> simp [h]
    · cases (List.find? (fun kv : String × JVal => kv.1 == k) l.reverse) <;> simp [h]

private def V (L : List (List String)) (d : Dict) (k : String) : Option JVal := (look d k).map (view L)

private def Valid (L : List (List String)) (d : Dict) : Prop := ∀ k r, (k, Val.ref r) ∈ d → r < L.length

private theorem look_mem {d : Dict} {k : String} {v : Val} (h : look d k = some v) : (k, v) ∈ d := by
  induction d with
  | nil => simp [look] at h
  | cons x d ih =>
    obtain ⟨a, w⟩ := x
    simp only [look] at h
    cases hd : look d k with
    | some w' =>
      rw [hd] at h
      simp only [Option.some_or, Option.some.injEq] at h
      subst h
      exact List.mem_cons_of_mem _ (ih hd)
    | none =>
      rw [hd, Option.none_or] at h
      split at h
      · next e =>
        injection h with h
        subst h; subst e
        exact List.mem_cons_self
      · cases h

private theorem V_update (L : List (List String)) (d e : Dict) (k : String) : V L (update d e) k = (V L e k).or (V L d k) := by
  unfold V
  rw [look_update]
  cases look e k <;> simp

private theorem V_mono {L : List (List String)} {d : Dict} (m : List (List String)) (h : Valid L d) (k : String) : V (L ++ m) d k = V L d k := by
  unfold V
  cases hl : look d k with
  | none => rfl
  | some v =>
    cases v with
    | atom s => rfl
    | ref r =>
      have := h k r (look_mem hl)
      simp only [Option.map_some, view]
      rw [getD_app _ _ _ _ this]

private theorem valid_mono {L : List (List String)} {d : Dict} (m : List (List String)) (h : Valid L d) : Valid (L ++ m) d := by
  intro k r hm
  have := h k r hm
  rw [List.length_append]
  omega

private theorem valid_put {L : List (List String)} {d : Dict} {k : String} {v : Val} (h : Valid L d) (hv : ∀ r, v = .ref r → r < L.length) :
    Valid L (dictPut d k v) := by
  intro j r hm
  unfold dictPut at hm
  rcases List.mem_append.1 hm with h1 | h1
  · exact h j r (List.mem_filter.1 h1).1
  · rw [List.mem_singleton] at h1
    exact hv r (Prod.mk.inj h1).2.symm

private theorem valid_update {L : List (List String)} {d e : Dict} (h : Valid L d) (he : Valid L e) : Valid L (update d e) := by
  induction e generalizing d with
  | nil => exact h
  | cons x e ih =>
    obtain ⟨a, v⟩ := x
    refine ih (d := dictPut d a v) (valid_put h (fun r hr => he a r (by rw [hr]; exact List.mem_cons_self)))
      (fun k r hm => he k r (List.mem_cons_of_mem _ hm))

private theorem alloc_spec (l : JDict) (L : List (List String)) :
    ∃ m, (alloc L l).1 = L ++ m ∧ Valid (L ++ m) (alloc L l).2 ∧ ∀ k, V (L ++ m) (alloc L l).2 k = look l k := by
  induction l generalizing L with
  | nil => exact ⟨[], by simp [alloc], fun _ _ h => by simp [alloc] at h, fun _ => rfl⟩
  | cons x l ih =>
    obtain ⟨k, v⟩ := x
    cases v with
    | atom s =>
      obtain ⟨m, h1, h2, h3⟩ := ih L
      refine ⟨m, h1, ?_, fun j => ?_⟩
      · intro j r hm
        rcases List.mem_cons.1 hm with h | h
        · cases (Prod.mk.inj h).2
        · exact h2 j r h
      · have := h3 j
        unfold V at this ⊢
        simp only [alloc, look]
        rw [← this]
        cases look (alloc L l).2 j with
        | some w => simp
        | none => by_cases hk : k = j <;> simp [hk, view]
    | list x =>
      obtain ⟨m, h1, h2, h3⟩ := ih (L ++ [x])
      have e : L ++ [x] ++ m = L ++ (x :: m) := by simp
      rw [e] at h1 h2 h3
      refine ⟨x :: m, h1, ?_, fun j => ?_⟩
      · intro j r hm
        rcases List.mem_cons.1 hm with h | h
        · have := (Prod.mk.inj h).2
          injection this with this
          simp only [List.length_append, List.length_cons]
          omega
        · exact h2 j r h
      · have := h3 j
        unfold V at this ⊢
        simp only [alloc, look]
        rw [← this]
        cases look (alloc (L ++ [x]) l).2 j with
        | some w => simp
        | none =>
          by_cases hk : k = j
          · simp [hk, view]
          · simp [hk]

/-- From `s` to `s'` only the dictionary at `a` and new ones change. -/
private structure Moves (a : Option Nat) (s s' : JState) : Prop where
  lists : ∃ m, s'.lists = s.lists ++ m
  len : s.dicts.length ≤ s'.dicts.length
  same : ∀ b, b < s.dicts.length → a ≠ some b → dictAt s' b = dictAt s b
  held : s'.held = s.held
  env : s'.env = s.env
  defaults : s'.defaults = s.defaults

private theorem Moves.trans {a : Option Nat} {s t u : JState} (h : Moves a s t) (g : Moves a t u) : Moves a s u := by
  obtain ⟨m, hm⟩ := h.lists
  obtain ⟨n, hn⟩ := g.lists
  exact ⟨⟨m ++ n, by rw [hn, hm, List.append_assoc]⟩, Nat.le_trans h.len g.len,
    fun b hb ha => (g.same b (Nat.lt_of_lt_of_le hb h.len) ha).trans (h.same b hb ha),
    g.held.trans h.held, g.env.trans h.env, g.defaults.trans h.defaults⟩

private theorem Moves.weaken {a : Option Nat} {s t : JState} (h : Moves none s t) : Moves a s t :=
  ⟨h.lists, h.len, fun b hb _ => h.same b hb (by simp), h.held, h.env, h.defaults⟩

private def Wf (s : JState) : Prop := ∀ a, Valid s.lists (dictAt s a)

private theorem Moves.V {a : Option Nat} {s t : JState} (h : Moves a s t) (hw : Wf s) (b : Nat) (hb : b < s.dicts.length) (ha : a ≠ some b)
    (k : String) : Verif.Props.V t.lists (dictAt t b) k = Verif.Props.V s.lists (dictAt s b) k := by
  obtain ⟨m, hm⟩ := h.lists
  rw [h.same b hb ha, hm, V_mono m (hw b)]

private theorem newDict_spec (s : JState) (d : JDict) (hw : Wf s) :
    Moves none s (newDict s d).1 ∧ Wf (newDict s d).1 ∧ (newDict s d).2 = s.dicts.length ∧ (newDict s d).1.dicts.length = s.dicts.length + 1
      ∧ (newDict s d).1.cached = s.cached ∧ ∀ k, V (newDict s d).1.lists (dictAt (newDict s d).1 s.dicts.length) k = look d k := by
  obtain ⟨m, h1, h2, h3⟩ := alloc_spec d s.lists
  have e : ∀ b, b < s.dicts.length → dictAt (newDict s d).1 b = dictAt s b := fun b hb => by
    unfold dictAt newDict
    exact getD_app _ _ _ _ hb
  have e2 : dictAt (newDict s d).1 s.dicts.length = update [] (alloc s.lists d).2 := by
    unfold dictAt newDict
    simp [List.getD]
  have hl : (newDict s d).1.lists = s.lists ++ m := h1
  refine ⟨⟨⟨m, hl⟩, by simp [newDict], fun b hb _ => e b hb, rfl, rfl, rfl⟩, ?_, rfl, by simp [newDict], rfl, ?_⟩
  · intro b
    rw [hl]
    by_cases hb : b < s.dicts.length
    · rw [e b hb]; exact valid_mono m (hw b)
    · by_cases hb2 : b = s.dicts.length
      · subst hb2
        rw [e2]
        exact valid_update (fun _ _ h => by simp at h) h2
      · have : dictAt (newDict s d).1 b = [] := by
          unfold dictAt newDict
          rw [List.getD_eq_getElem?_getD, List.getElem?_eq_none]
          · rfl
          · simp only [List.length_append, List.length_cons, List.length_nil]
            omega
        rw [this]
        intro _ _ h
        simp at h
  · intro k
    rw [e2, hl, V_update, h3]
    simp [V, look]

private theorem updateAt_spec (s : JState) (a : Nat) (d : Dict) (hw : Wf s) (ha : a < s.dicts.length) (hd : Valid s.lists d) :
    Moves (some a) s (updateAt s a d) ∧ Wf (updateAt s a d) ∧ (updateAt s a d).dicts.length = s.dicts.length
      ∧ (updateAt s a d).cached = s.cached ∧ (updateAt s a d).lists = s.lists
      ∧ ∀ k, V (updateAt s a d).lists (dictAt (updateAt s a d) a) k = (V s.lists d k).or (V s.lists (dictAt s a) k) := by
  have e : ∀ b, a ≠ b → dictAt (updateAt s a d) b = dictAt s b := fun b hb => by
    unfold updateAt
    show (s.dicts.set a _).getD b [] = s.dicts.getD b []
    rw [List.getD_eq_getElem?_getD, List.getD_eq_getElem?_getD, List.getElem?_set_ne hb]
  have e2 : dictAt (updateAt s a d) a = update (dictAt s a) d := by
    unfold updateAt
    show (s.dicts.set a _).getD a [] = _
    rw [List.getD_eq_getElem?_getD, List.getElem?_set_self ha, Option.getD_some]
  refine ⟨⟨⟨[], by simp [updateAt]⟩, by simp [updateAt], fun b _ hb => e b (fun h => hb (by rw [h])), rfl, rfl, rfl⟩, ?_, by simp [updateAt], rfl, rfl, ?_⟩
  · intro b
    show Valid s.lists _
    by_cases hb : a = b
    · subst hb; rw [e2]; exact valid_update (hw a) hd
    · rw [e b hb]; exact hw b
  · intro k
    show V s.lists _ k = _
    rw [e2, V_update]

private theorem loadFile_spec (s : JState) (name : String) (hw : Wf s) :
    Moves none s (loadFile s name).1 ∧ Wf (loadFile s name).1 ∧ (loadFile s name).1.cached = s.cached
      ∧ (content (s.env.file name) = none → (loadFile s name).2 = none)
      ∧ ∀ d, content (s.env.file name) = some d → (loadFile s name).2 = some s.dicts.length
          ∧ (loadFile s name).1.dicts.length = s.dicts.length + 1
          ∧ ∀ k, V (loadFile s name).1.lists (dictAt (loadFile s name).1 s.dicts.length) k = look d k := by
  have hself : Moves none s s := ⟨⟨[], by simp⟩, Nat.le_refl _, fun _ _ _ => rfl, rfl, rfl, rfl⟩
  unfold loadFile
  cases hf : s.env.file name with
  | missing =>
    obtain ⟨a, b, c, d, e, f⟩ := newDict_spec s [] hw
    refine ⟨a, b, e, fun h => by simp [content] at h, fun x hx => ?_⟩
    simp only [content, Option.some.injEq] at hx
    subst hx
    exact ⟨by rw [← c], d, f⟩
  | bad => exact ⟨hself, hw, rfl, fun _ => rfl, fun d h => by simp [content] at h⟩
  | good y =>
    obtain ⟨a, b, c, d, e, f⟩ := newDict_spec s y hw
    refine ⟨a, b, e, fun h => by simp [content] at h, fun x hx => ?_⟩
    simp only [content, Option.some.injEq] at hx
    subst hx
    exact ⟨by rw [← c], d, f⟩

/-- The cache has the files that have been seen. -/
private def CacheOk (s : JState) (old : Option (JDict × JDict)) : Prop :=
  match s.cached with
  | none => old = none
  | some (u, p) => ∃ ud pd, old = some (ud, pd) ∧ u < s.dicts.length ∧ p < s.dicts.length
      ∧ (∀ k, V s.lists (dictAt s u) k = look ud k) ∧ ∀ k, V s.lists (dictAt s p) k = look pd k

/-- The cache has no dictionary of this kind. -/
private def Free (s : JState) (P : Nat → Prop) : Prop := ∀ u p, s.cached = some (u, p) → ¬ P u ∧ ¬ P p

private def seen1 (e : Env) (old : Option (JDict × JDict)) : Option (JDict × JDict) :=
  match old with | some x => some x | none => filesNow e

private theorem cache_moves {a : Option Nat} {s t : JState} {old : Option (JDict × JDict)} (h : Moves a s t) (hw : Wf s) (hc : CacheOk s old)
    (hf : Free s (fun b => a = some b)) (he : t.cached = s.cached) : CacheOk t old := by
  unfold CacheOk at hc ⊢
  rw [he]
  cases hs : s.cached with
  | none => rw [hs] at hc; exact hc
  | some up =>
    obtain ⟨u, p⟩ := up
    rw [hs] at hc
    obtain ⟨ud, pd, h1, h2, h3, h4, h5⟩ := hc
    obtain ⟨f1, f2⟩ := hf u p hs
    exact ⟨ud, pd, h1, Nat.lt_of_lt_of_le h2 h.len, Nat.lt_of_lt_of_le h3 h.len,
      fun k => (h.V hw u h2 f1 k).trans (h4 k), fun k => (h.V hw p h3 f2 k).trans (h5 k)⟩

private theorem loadOptions_spec (s : JState) (old : Option (JDict × JDict)) (hw : Wf s) (hc : CacheOk s old) (P : Nat → Prop)
    (hP : ∀ b, P b → b < s.dicts.length) (hf : Free s P) :
    Moves none s (loadOptions s).1 ∧ Wf (loadOptions s).1 ∧ CacheOk (loadOptions s).1 (seen1 s.env old) ∧ Free (loadOptions s).1 P
      ∧ (loadOptions s).2 = (loadOptions s).1.cached := by
  have hself : Moves none s s := ⟨⟨[], by simp⟩, Nat.le_refl _, fun _ _ _ => rfl, rfl, rfl, rfl⟩
  unfold loadOptions
  cases hs : s.cached with
  | some up =>
    obtain ⟨u, p⟩ := up
    have : seen1 s.env old = old := by
      unfold CacheOk at hc
      rw [hs] at hc
      obtain ⟨ud, pd, h1, _⟩ := hc
      rw [h1]; rfl
    exact ⟨hself, hw, by rw [this]; exact hc, hf, hs.symm⟩
  | none =>
    have hold : old = none := by unfold CacheOk at hc; rw [hs] at hc; exact hc
    subst hold
    show _ ∧ _ ∧ CacheOk _ (filesNow s.env) ∧ _
    obtain ⟨a1, a2, a3, a4, a5⟩ := loadFile_spec s (userFile s.env) hw
    cases hu : content (s.env.file (userFile s.env)) with
    | none =>
      have hn : filesNow s.env = none := by
        unfold filesNow
        have hu' : content (s.env.file (s.env.config ++ "/dolfinx/dolfinx_jit_options.json")) = none := hu
        rw [hu']
      have hr := a4 hu
      rcases hl : loadFile s (userFile s.env) with ⟨t, o⟩
      rw [hl] at a1 a2 a3 hr
      simp only at a1 a2 a3 hr
      subst hr
      simp only
      have ht : t.cached = none := a3.trans hs
      refine ⟨a1, a2, ?_, ?_, ht.symm⟩
      · rw [hn]; unfold CacheOk; rw [ht]
      · intro u p h; rw [ht] at h; cases h
    | some ud =>
      obtain ⟨b1, b2, b3⟩ := a5 ud hu
      rcases hl : loadFile s (userFile s.env) with ⟨t, o⟩
      rw [hl] at a1 a2 a3 b1 b2 b3
      simp only at a1 a2 a3 b1 b2 b3
      subst b1
      simp only
      have ht : t.cached = none := a3.trans hs
      obtain ⟨c1, c2, c3, c4, c5⟩ := loadFile_spec t (pwdFile t.env) a2
      rw [a1.env] at c1 c2 c3 c4 c5 ⊢
      cases hp : content (s.env.file (pwdFile s.env)) with
      | none =>
        have hn : filesNow s.env = none := by
          unfold filesNow
          have hu' : content (s.env.file (s.env.config ++ "/dolfinx/dolfinx_jit_options.json")) = some ud := hu
          have hp' : content (s.env.file (s.env.cwd ++ "/dolfinx_jit_options.json")) = none := hp
          rw [hu', hp']
        have hr := c4 hp
        rcases hl2 : loadFile t (pwdFile s.env) with ⟨w, o⟩
        rw [hl2] at c1 c2 c3 hr
        simp only at c1 c2 c3 hr
        subst hr
        simp only
        have hw' : w.cached = none := c3.trans ht
        refine ⟨a1.trans c1, c2, ?_, ?_, hw'.symm⟩
        · rw [hn]; unfold CacheOk; rw [hw']
        · intro u p h; rw [hw'] at h; cases h
      | some pd =>
        have hn : filesNow s.env = some (ud, pd) := by
          unfold filesNow
          have hu' : content (s.env.file (s.env.config ++ "/dolfinx/dolfinx_jit_options.json")) = some ud := hu
          have hp' : content (s.env.file (s.env.cwd ++ "/dolfinx_jit_options.json")) = some pd := hp
          rw [hu', hp']
        obtain ⟨d1, d2, d3⟩ := c5 pd hp
        rcases hl2 : loadFile t (pwdFile s.env) with ⟨w, o⟩
        rw [hl2] at c1 c2 c3 d1 d2 d3
        simp only at c1 c2 c3 d1 d2 d3
        subst d1
        simp only
        have hmv := a1.trans c1
        refine ⟨⟨hmv.lists, hmv.len, hmv.same, hmv.held, hmv.env, hmv.defaults⟩, c2, ?_, ?_, trivial⟩
        · rw [hn]
          exact ⟨ud, pd, rfl, by show _ < w.dicts.length; omega, by show _ < w.dicts.length; omega,
            fun k => (c1.V a2 _ (by omega) (by simp) k).trans (b3 k), d3⟩
        · intro u p h
          simp only [Option.some.injEq, Prod.mk.injEq] at h
          obtain ⟨rfl, rfl⟩ := h
          exact ⟨fun h => by have := hP _ h; omega, fun h => by have := hP _ h; omega⟩

private theorem getOptions_spec (path : JVal → String) (s : JState) (old : Option (JDict × JDict)) (d0 : JDict) (b : Option Nat) (hw : Wf s)
    (hc : CacheOk s old) (hf : Free s (· ∈ s.held)) (hh : ∀ x ∈ s.held, x < s.dicts.length) (hb : ∀ x, b = some x → x ∈ s.held)
    (hv : Valid s.lists s.defaults) (hd : ∀ k, V s.lists s.defaults k = look d0 k) (h0 : look d0 "cache_dir" ≠ none) :
    let s' := (getOptions path s b).1
    let o := (getOptions path s b).2
    (∃ m, s'.lists = s.lists ++ m) ∧ s.dicts.length ≤ s'.dicts.length ∧ s'.env = s.env ∧ s'.defaults = s.defaults ∧ Wf s'
      ∧ CacheOk s' (seen1 s.env old) ∧ Free s' (· ∈ s'.held) ∧ (∀ x ∈ s'.held, x < s'.dicts.length)
      ∧ (seen1 s.env old = none → o = none)
      ∧ ∀ u p, seen1 s.env old = some (u, p) → ∃ a, o = some a
        ∧ (∀ k, k ≠ "cache_dir" → shows s' (some a) k = (shows s b k).or (look (d0 ++ u ++ p) k))
        ∧ ∃ v, (shows s b "cache_dir").or (look (d0 ++ u ++ p) "cache_dir") = some v ∧ shows s' (some a) "cache_dir" = some (.atom (path v)) := by
  intro s' o
  obtain ⟨a1, a2, a3, a4, a5, a6⟩ := newDict_spec s [] hw
  -- the new dictionary with the defaults
  have e1 := updateAt_spec (newDict s []).1 s.dicts.length s.defaults a2 (by omega)
    (by obtain ⟨m, hm⟩ := a1.lists; rw [hm]; exact valid_mono m hv)
  have hgo : getOptions path s b = getOptions path s b := rfl
  conv at hgo => rhs; unfold getOptions
  rw [a3] at hgo
  simp only at hgo
  generalize hs1 : updateAt (newDict s []).1 s.dicts.length s.defaults = s1 at hgo e1
  obtain ⟨b1, b2, b3, b4, b5, b6⟩ := e1
  have m1 : Moves (some s.dicts.length) s s1 := a1.weaken.trans b1
  have c1 : CacheOk s1 old := cache_moves m1 hw hc (by
    intro u p h
    unfold CacheOk at hc
    rw [h] at hc
    obtain ⟨_, _, _, g1, g2, _⟩ := hc
    exact ⟨fun e => by injection e with e; omega, fun e => by injection e with e; omega⟩) (b4.trans a5)
  have v1 : ∀ k, V s1.lists (dictAt s1 s.dicts.length) k = look d0 k := by
    intro k
    rw [b6, a6]
    obtain ⟨m, hm⟩ := a1.lists
    rw [hm, V_mono m hv, hd]
    simp [look]
  have f1 : Free s1 (fun x => x = s.dicts.length ∨ x ∈ s.held) := by
    intro u p h
    rw [b4, a5] at h
    have g := hf u p h
    unfold CacheOk at hc
    rw [h] at hc
    obtain ⟨_, _, _, g1, g2, _⟩ := hc
    exact ⟨fun e => e.elim (fun e => by omega) g.1, fun e => e.elim (fun e => by omega) g.2⟩
  obtain ⟨l1, l2, l3, l4, l5⟩ := loadOptions_spec s1 old b2 c1 _ (by
    rintro x (rfl | hx)
    · omega
    · have := hh x hx; omega) f1
  rw [m1.env] at l3
  rcases hlo : loadOptions s1 with ⟨s2, r⟩
  rw [hlo] at l1 l2 l3 l4 l5 hgo
  simp only at l1 l2 l3 l4 l5 hgo
  have m2 : Moves (some s.dicts.length) s s2 := m1.trans l1.weaken
  cases r with
  | none =>
    simp only at hgo
    have hs' : s' = s2 := congrArg Prod.fst hgo
    have ho : o = none := congrArg Prod.snd hgo
    have hn : seen1 s.env old = none := by unfold CacheOk at l3; rw [← l5] at l3; exact l3
    rw [hs', ho]
    refine ⟨m2.lists, m2.len, m2.env, m2.defaults, l2, l3, ?_, ?_, fun _ => rfl, fun u p h => by rw [hn] at h; cases h⟩
    · intro u p h; rw [← l5] at h; cases h
    · intro x hx; rw [m2.held] at hx; exact Nat.lt_of_lt_of_le (hh x hx) m2.len
  | some up =>
    obtain ⟨u, p⟩ := up
    simp only at hgo
    have l3' := l3
    unfold CacheOk at l3'
    rw [← l5] at l3'
    obtain ⟨ud, pd, g1, g2, g3, g4, g5⟩ := l3'
    obtain ⟨fu, fp⟩ := l4 u p l5.symm
    have hlen2 : s.dicts.length < s2.dicts.length := by have := l1.len; omega
    have v2 : ∀ k, V s2.lists (dictAt s2 s.dicts.length) k = look d0 k := fun k => (l1.V b2 _ (by omega) (by simp) k).trans (v1 k)
    -- the user's options
    have e3 := updateAt_spec s2 s.dicts.length (dictAt s2 u) l2 hlen2 (l2 u)
    generalize updateAt s2 s.dicts.length (dictAt s2 u) = s3 at hgo e3
    obtain ⟨p1, p2, p3, p4, p5, p6⟩ := e3
    have nu : (some s.dicts.length : Option Nat) ≠ some u := fun e => fu (Or.inl (by injection e with e; exact e.symm))
    have np : (some s.dicts.length : Option Nat) ≠ some p := fun e => fp (Or.inl (by injection e with e; exact e.symm))
    have v3 : ∀ k, V s3.lists (dictAt s3 s.dicts.length) k = (look ud k).or (look d0 k) := fun k => by rw [p6, g4, v2]
    -- the options of the working directory
    have e4 := updateAt_spec s3 s.dicts.length (dictAt s3 p) p2 (by omega) (p2 p)
    generalize updateAt s3 s.dicts.length (dictAt s3 p) = s4 at hgo e4
    obtain ⟨q1, q2, q3, q4, q5, q6⟩ := e4
    have v4 : ∀ k, V s4.lists (dictAt s4 s.dicts.length) k = look (d0 ++ ud ++ pd) k := fun k => by
      rw [q6, v3, p1.V l2 p g3 np k, g5, look_append, look_append]
    have m4 : Moves (some s.dicts.length) s s4 := (m2.trans p1).trans q1
    -- the options of the call
    have h5 : ∃ s5, Moves (some s.dicts.length) s4 s5 ∧ Wf s5 ∧ s5.dicts.length = s4.dicts.length ∧ s5.cached = s4.cached ∧
        updatePrio s4 s.dicts.length b = s5 ∧
        ∀ k, V s5.lists (dictAt s5 s.dicts.length) k = (shows s b k).or (look (d0 ++ ud ++ pd) k) := by
      cases b with
      | none =>
        refine ⟨s4, ⟨⟨[], by simp⟩, Nat.le_refl _, fun _ _ _ => rfl, rfl, rfl, rfl⟩, q2, rfl, rfl, rfl, fun k => ?_⟩
        rw [v4]; simp [shows]
      | some b =>
        obtain ⟨r1, r2, r3, r4, r5, r6⟩ := updateAt_spec s4 s.dicts.length (dictAt s4 b) q2 (by omega) (q2 b)
        have hbl := hh b (hb b rfl)
        refine ⟨_, r1, r2, r3, r4, rfl, fun k => ?_⟩
        rw [r6, v4, m4.V hw b hbl (fun e => by injection e with e; omega) k]
        rfl
    obtain ⟨s5, t1, t2, t3, t4, t5, t6⟩ := h5
    rw [t5] at hgo
    have m5 := m4.trans t1
    have m25 : Moves (some s.dicts.length) s2 s5 := (p1.trans q1).trans t1
    have c5 : s5.cached = some (u, p) := by rw [t4, q4, p4, ← l5]
    have ck5 : CacheOk s5 (seen1 s.env old) := cache_moves m25 l2 l3 (by
      intro u' p' h
      rw [← l5] at h
      simp only [Option.some.injEq, Prod.mk.injEq] at h
      obtain ⟨rfl, rfl⟩ := h
      exact ⟨nu, np⟩) (c5.trans l5)
    have hlen5 : s.dicts.length < s5.dicts.length := by omega
    -- the directory of the cache
    have t7 := t6 "cache_dir"
    cases hl : look (dictAt s5 s.dicts.length) "cache_dir" with
    | none =>
      exfalso
      unfold V at t7
      rw [hl, look_append, look_append] at t7
      cases hx : look d0 "cache_dir" with
      | none => exact h0 hx
      | some w =>
        rw [hx] at t7
        cases shows s b "cache_dir" <;> cases look pd "cache_dir" <;> cases look ud "cache_dir" <;> simp at t7
    | some v =>
      unfold V at t7
      rw [hl] at t7 hgo
      simp only at hgo
      generalize hs6 : JState.mk s5.lists
        (s5.dicts.set s.dicts.length (dictPut (dictAt s5 s.dicts.length) "cache_dir" (.atom (path (view s5.lists v)))))
        s5.defaults s5.cached (s5.held ++ [s.dicts.length]) s5.env = s6 at hgo
      have hs' : s' = s6 := congrArg Prod.fst hgo
      have ho : o = some s.dicts.length := congrArg Prod.snd hgo
      have x1 : s6.lists = s5.lists := by rw [← hs6]
      have x2 : s6.dicts.length = s5.dicts.length := by rw [← hs6]; simp
      have x3 : ∀ y, s.dicts.length ≠ y → dictAt s6 y = dictAt s5 y := fun y hy => by
        rw [← hs6]
        show (s5.dicts.set _ _).getD y [] = s5.dicts.getD y []
        rw [List.getD_eq_getElem?_getD, List.getD_eq_getElem?_getD, List.getElem?_set_ne hy]
      have x4 : dictAt s6 s.dicts.length = dictPut (dictAt s5 s.dicts.length) "cache_dir" (.atom (path (view s5.lists v))) := by
        rw [← hs6]
        show (s5.dicts.set _ _).getD _ [] = _
        rw [List.getD_eq_getElem?_getD, List.getElem?_set_self hlen5, Option.getD_some]
      have x5 : s6.cached = s5.cached := by rw [← hs6]
      have x6 : s6.held = s.held ++ [s.dicts.length] := by rw [← hs6, ← m5.held]
      have m6 : Moves (some s.dicts.length) s5 { s6 with held := s5.held } :=
        ⟨⟨[], by simp [x1]⟩, by simp [x2], fun y _ hy => x3 y (fun e => hy (by rw [e])), rfl, by rw [← hs6], by rw [← hs6]⟩
      have w6 : Wf s6 := by
        intro y
        rw [x1]
        by_cases hy : s.dicts.length = y
        · subst hy; rw [x4]; exact valid_put (t2 _) (fun r hr => by cases hr)
        · rw [x3 y hy]; exact t2 y
      have ck6 : CacheOk s6 (seen1 s.env old) := by
        have := cache_moves m6 t2 ck5 (by
          intro u' p' h
          rw [c5] at h
          simp only [Option.some.injEq, Prod.mk.injEq] at h
          obtain ⟨rfl, rfl⟩ := h
          exact ⟨nu, np⟩) x5
        exact this
      rw [hs', ho]
      refine ⟨?_, ?_, ?_, ?_, w6, ck6, ?_, ?_, fun h => ?_, fun u' p' h => ?_⟩
      · rw [x1]; exact m5.lists
      · rw [x2]; exact m5.len
      · rw [← hs6]; exact m5.env
      · rw [← hs6]; exact m5.defaults
      · intro u' p' h
        rw [x5, c5] at h
        simp only [Option.some.injEq, Prod.mk.injEq] at h
        obtain ⟨rfl, rfl⟩ := h
        rw [x6]
        constructor
        · intro hm
          rcases List.mem_append.1 hm with hm | hm
          · exact fu (Or.inr hm)
          · exact fu (Or.inl (List.mem_singleton.1 hm))
        · intro hm
          rcases List.mem_append.1 hm with hm | hm
          · exact fp (Or.inr hm)
          · exact fp (Or.inl (List.mem_singleton.1 hm))
      · intro x hx
        rw [x6] at hx
        rcases List.mem_append.1 hx with hm | hm
        · have := hh x hm; omega
        · rw [List.mem_singleton.1 hm]; omega
      · rw [g1] at h; cases h
      · rw [g1] at h
        simp only [Option.some.injEq, Prod.mk.injEq] at h
        obtain ⟨rfl, rfl⟩ := h
        refine ⟨_, rfl, fun k hk => ?_, view s5.lists v, ?_, ?_⟩
        · rw [← t6 k]
          show (look (dictAt s6 s.dicts.length) k).map (view s6.lists) = _
          rw [x4, look_put, if_neg (Ne.symm hk), x1]
          rfl
        · rw [← t7]; rfl
        · show (look (dictAt s6 s.dicts.length) "cache_dir").map (view s6.lists) = _
          rw [x4, look_put, if_pos rfl]
          rfl

private structure JInv (s : JState) (e : Env) (old : Option (JDict × JDict)) (d0 : JDict) : Prop where
  env : s.env = e
  wf : Wf s
  cache : CacheOk s old
  free : Free s (· ∈ s.held)
  held : ∀ x ∈ s.held, x < s.dicts.length
  valid : Valid s.lists s.defaults
  defaults : ∀ k, V s.lists s.defaults k = look d0 k

private theorem JInv.mono {s t : JState} {e : Env} {old : Option (JDict × JDict)} {d0 : JDict} {a : Option Nat} (h : JInv s e old d0)
    (m : Moves a s t) (hw : Wf t) (hc : t.cached = s.cached) (ha : ∀ x, a = some x → x ∈ s.held) : JInv t e old d0 := by
  obtain ⟨x, hx⟩ := m.lists
  refine ⟨m.env.trans h.env, hw, cache_moves m h.wf h.cache ?_ hc, ?_, ?_, ?_, ?_⟩
  · intro u p hup
    have := h.free u p hup
    exact ⟨fun e => this.1 (ha _ e), fun e => this.2 (ha _ e)⟩
  · intro u p hup
    rw [hc] at hup
    show ¬ u ∈ t.held ∧ ¬ p ∈ t.held
    rw [m.held]
    exact h.free u p hup
  · intro y hy
    rw [m.held] at hy
    exact Nat.lt_of_lt_of_le (h.held y hy) m.len
  · rw [m.defaults, hx]; exact valid_mono x h.valid
  · intro k; rw [m.defaults, hx, V_mono x h.valid]; exact h.defaults k

private theorem addr_held {s : JState} {b : Option Nat} {x : Nat} (h : addr s b = some x) : x ∈ s.held := by
  unfold addr at h
  cases b with
  | none => simp at h
  | some i => exact List.mem_of_getElem? h

private theorem jstep_inv (path : JVal → String) (s : JState) (e : Env) (old : Option (JDict × JDict)) (d0 : JDict)
    (h0 : look d0 "cache_dir" ≠ none) (h : JInv s e old d0) (op : Op) (ho : NoAppend op) :
    ∃ e' old', JInv (jstep path s op) e' old' d0 ∧ ∀ rest, seen e old (op :: rest) = seen e' old' rest := by
  cases op with
  | get b =>
    obtain ⟨⟨m, a1⟩, a2, a3, a4, a5, a6, a7, a8, _⟩ := getOptions_spec path s old d0 (addr s b) h.wf h.cache h.free h.held
      (fun x hx => addr_held hx) h.valid h.defaults h0
    refine ⟨e, seen1 s.env old, ⟨a3.trans h.env, a5, a6, a7, a8, ?_, ?_⟩, fun rest => ?_⟩
    · show Valid (getOptions path s (addr s b)).1.lists (getOptions path s (addr s b)).1.defaults
      rw [a1, a4]; exact valid_mono m h.valid
    · intro k
      show V (getOptions path s (addr s b)).1.lists (getOptions path s (addr s b)).1.defaults k = _
      rw [a1, a4, V_mono m h.valid]; exact h.defaults k
    · rw [h.env]; cases old <;> rfl
  | dict d =>
    obtain ⟨a1, a2, a3, a4, a5, a6⟩ := newDict_spec s d h.wf
    have g := h.mono a1 a2 a5 (by simp)
    refine ⟨e, old, ⟨g.env, g.wf, g.cache, ?_, ?_, g.valid, g.defaults⟩, fun _ => rfl⟩
    · intro u p hup
      have h1 := g.free u p hup
      have h2 := h.cache
      unfold CacheOk at h2
      have h3 : s.cached = some (u, p) := a5.symm.trans hup
      rw [h3] at h2
      obtain ⟨_, _, _, g1, g2, _⟩ := h2
      have h4 := h.free u p h3
      show ¬ u ∈ s.held ++ [(newDict s d).2] ∧ ¬ p ∈ s.held ++ [(newDict s d).2]
      rw [a3]
      constructor
      · intro hm
        rcases List.mem_append.1 hm with hm | hm
        · exact h4.1 hm
        · have := List.mem_singleton.1 hm; omega
      · intro hm
        rcases List.mem_append.1 hm with hm | hm
        · exact h4.2 hm
        · have := List.mem_singleton.1 hm; omega
    · intro y hy
      have hy' : y ∈ s.held ++ [(newDict s d).2] := hy
      show y < (newDict s d).1.dicts.length
      rw [a4]
      rw [a3] at hy'
      rcases List.mem_append.1 hy' with hm | hm
      · have := h.held y hm; omega
      · have := List.mem_singleton.1 hm; omega
  | assign i k v =>
    refine ⟨e, old, ?_, fun _ => rfl⟩
    simp only [jstep]
    split
    · exact h
    · next a ha =>
      obtain ⟨m, b1, b2, b3⟩ := alloc_spec [(k, v)] s.lists
      have mem : a ∈ s.held := List.mem_of_getElem? ha
      have m1 : Moves none s { s with lists := (alloc s.lists [(k, v)]).1 } :=
        ⟨⟨m, b1⟩, Nat.le_refl _, fun _ _ _ => rfl, rfl, rfl, rfl⟩
      have w1 : Wf { s with lists := (alloc s.lists [(k, v)]).1 } := fun x => by
        show Valid (alloc s.lists [(k, v)]).1 (dictAt s x)
        rw [b1]; exact valid_mono m (h.wf x)
      have g := h.mono m1 w1 rfl (by simp)
      obtain ⟨c1, c2, c3, c4, c5, c6⟩ := updateAt_spec { s with lists := (alloc s.lists [(k, v)]).1 } a (alloc s.lists [(k, v)]).2 w1
        (h.held a mem) (by show Valid (alloc s.lists [(k, v)]).1 _; rw [b1]; exact b2)
      exact g.mono c1 c2 c4 (fun x hx => by injection hx with hx; subst hx; exact mem)
  | append i k x => exact absurd ho (by simp [NoAppend])
  | chdir d =>
    exact ⟨_, old, ⟨by show ({ s.env with cwd := d } : Env) = { e with cwd := d }; rw [h.env], h.wf, h.cache, h.free, h.held, h.valid, h.defaults⟩,
      fun _ => rfl⟩
  | setConfig d =>
    exact ⟨_, old, ⟨by show ({ s.env with config := d } : Env) = { e with config := d }; rw [h.env], h.wf, h.cache, h.free, h.held, h.valid,
      h.defaults⟩, fun _ => rfl⟩
  | write name f =>
    exact ⟨envStep e (.write name f), old, ⟨by rw [← h.env]; rfl, h.wf, h.cache, h.free, h.held, h.valid, h.defaults⟩, fun _ => rfl⟩

private theorem jrun_inv (path : JVal → String) (ops : List Op) (s : JState) (e : Env) (old : Option (JDict × JDict)) (d0 : JDict)
    (h0 : look d0 "cache_dir" ≠ none) (h : JInv s e old d0) (ho : ∀ op ∈ ops, NoAppend op) :
    ∃ e' old', JInv (jrun path s ops) e' old' d0 ∧ ∀ rest, seen e old (ops ++ rest) = seen e' old' rest := by
  induction ops generalizing s e old with
  | nil => exact ⟨e, old, h, fun _ => rfl⟩
  | cons op ops ih =>
    obtain ⟨e1, o1, h1, h2⟩ := jstep_inv path s e old d0 h0 h op (ho op List.mem_cons_self)
    obtain ⟨e2, o2, h3, h4⟩ := ih (jstep path s op) e1 o1 h1 (fun x hx => ho x (List.mem_cons_of_mem _ hx))
    exact ⟨e2, o2, h3, fun rest => (h2 (ops ++ rest)).trans (h4 rest)⟩

private theorem jstart_inv (d0 : JDict) (e : Env) : JInv (jstart d0 e) e none d0 := by
  obtain ⟨m, h1, h2, h3⟩ := alloc_spec d0 []
  rw [← h1] at h2 h3
  exact ⟨rfl, fun a => by intro k r hm; simp [dictAt, jstart] at hm, rfl, fun u p h => by simp [jstart] at h, fun x hx => by simp [jstart] at hx, h2, h3⟩

/-- **Which options**: after any program that changes no list in place, `get_options` gives for each key the value of the call's own
dictionary as it is now; else of the file in the working directory, else of the user's file, both as they were when the options were asked
for the first time with readable files; else the default.  `cache_dir` is that value as a path.  It raises an exception exactly when a
file cannot be read and no earlier call has read them.  Whatever the program has assigned in the dictionaries it got or
made does not matter.  The full claim is for all programs: see `C112_refuted_append` and `C112_refuted_prio`. -/
theorem C112_options_partial (path : JVal → String) (d0 : JDict) (e : Env) (ops : List Op) (prio : Option Nat)
    (h0 : lastVal d0 "cache_dir" ≠ none) (ho : ∀ op ∈ ops, NoAppend op) :
    let s := jrun path (jstart d0 e) ops
    let s' := (getOptions path s (addr s prio)).1
    let o := (getOptions path s (addr s prio)).2
    (seen e none (ops ++ [.get prio]) = none ↔ o = none)
      ∧ ∀ u p, seen e none (ops ++ [.get prio]) = some (u, p) → ∃ a, o = some a
        ∧ (∀ k, k ≠ "cache_dir" → shows s' (some a) k = (shows s (addr s prio) k).or (lastVal (d0 ++ u ++ p) k))
        ∧ ∃ v, (shows s (addr s prio) "cache_dir").or (lastVal (d0 ++ u ++ p) "cache_dir") = some v
            ∧ shows s' (some a) "cache_dir" = some (.atom (path v)) := by
  intro s s' o
  rw [lastVal_look] at h0
  obtain ⟨e1, old, h, hseen⟩ := jrun_inv path ops (jstart d0 e) e none d0 h0 (jstart_inv d0 e) ho
  obtain ⟨_, _, _, _, _, _, _, _, h1, h2⟩ := getOptions_spec path s old d0 (addr s prio) h.wf h.cache h.free h.held
    (fun x hx => addr_held hx) h.valid h.defaults h0
  have e2 : seen e none (ops ++ [.get prio]) = seen1 s.env old := by
    rw [hseen, h.env]
    cases old <;> rfl
  rw [e2]
  refine ⟨⟨h1, fun hn => ?_⟩, fun u p hup => ?_⟩
  · cases hs : seen1 s.env old with
    | none => rfl
    | some up =>
      obtain ⟨a, ha, _⟩ := h2 up.1 up.2 hs
      have hn' : (getOptions path s (addr s prio)).2 = none := hn
      rw [hn'] at ha
      cases ha
  · simp only [lastVal_look]
    exact h2 u p hup

/-- The defaults for the examples. -/
private def exDefaults : JDict := [("cache_dir", .atom "~/.cache/fenics"), ("timeout", .atom "10"), ("cffi_extra_compile_args", .list ["-O2", "-g0"])]

/-- A user's file, and another in `/b`. -/
private def exEnv : Env :=
  ⟨fun n => if n = "/c/dolfinx/dolfinx_jit_options.json" then .good [("timeout", .atom "20"), ("cffi_verbose", .atom "true")]
    else if n = "/b/dolfinx_jit_options.json" then .good [("timeout", .atom "30")] else .missing, "/a", "/c"⟩

private def exPath : JVal → String
  | .atom s => s
  | .list _ => ""

/-- The first call is made in `/a`; the change to `/b` comes too late, and the dictionary of the call comes first. -/
example :
    let ops : List Op := [.get none, .chdir "/b", .assign 0 "cffi_verbose" (.atom "false"), .dict [("cffi_debug", .atom "true")]]
    (∀ op ∈ ops, NoAppend op) ∧ lastVal exDefaults "cache_dir" ≠ none
      ∧ seen exEnv none (ops ++ [.get (some 1)]) = some ([("timeout", .atom "20"), ("cffi_verbose", .atom "true")], [])
      ∧ (let s := jrun exPath (jstart exDefaults exEnv) (ops ++ [.get (some 1)])
         shows s s.held[2]? "timeout" = some (.atom "20") ∧ shows s s.held[2]? "cffi_verbose" = some (.atom "true")
           ∧ shows s s.held[2]? "cffi_debug" = some (.atom "true")
           ∧ shows s s.held[2]? "cffi_extra_compile_args" = some (.list ["-O2", "-g0"])) := by
  refine ⟨by simp [NoAppend], by decide, by decide +kernel, by decide +kernel⟩

/-- A list in the dictionary that `get_options` gives is the list of the defaults: what the program appends to it, all later calls get. -/
theorem C112_refuted_append :
    let s := jrun exPath (jstart exDefaults exEnv) [.get none, .append 0 "cffi_extra_compile_args" "-march=native", .get none]
    shows s s.held[1]? "cffi_extra_compile_args" = some (.list ["-O2", "-g0", "-march=native"])
      ∧ lastVal exDefaults "cffi_extra_compile_args" = some (.list ["-O2", "-g0"]) := by decide +kernel

/-- And a list in the dictionary given to the call is in both: what is appended to the result changes the argument. -/
theorem C112_refuted_prio :
    let s := jrun exPath (jstart exDefaults exEnv) [.dict [("cffi_libraries", .list ["m"])], .get (some 0), .append 1 "cffi_libraries" "blas"]
    shows s s.held[0]? "cffi_libraries" = some (.list ["m", "blas"]) := by decide +kernel

end Verif.Props
