import Verif.Prelude
import Verif.Spec.LocateDofs
import Verif.Spec.Assembly
import Verif.Lemmas.StdAlg
import Verif.Lemmas.Scatterer
import Verif.Lemmas.SubMap
import Verif.Props.C29_SubMap
/-! # C48: dofs located on marked entities -/
namespace Verif.Props
open Verif.Locate Verif.Spec Verif.Spec.Locate Verif.World Verif.Std

theorem mapM_option_some {α β : Type} (f : α → Option β) (l : List α) (r : List β) (h : l.mapM f = some r) (y : β) :
    y ∈ r ↔ ∃ x ∈ l, f x = some y := by
  induction l generalizing r with
  | nil => simp at h; subst h; simp
  | cons a l ih =>
    rw [List.mapM_cons] at h
    cases hf : f a with
    | none => rw [hf] at h; simp at h
    | some b =>
      cases hl : l.mapM f with
      | none => rw [hf, hl] at h; simp at h
      | some t =>
        rw [hf, hl] at h
        simp at h
        subst h
        simp [ih t hl, hf, eq_comm]

theorem mapM_option_ok {α β : Type} (f : α → Option β) (l : List α) (h : ∀ x ∈ l, ∃ y, f x = some y) :
    ∃ r, l.mapM f = some r := by
  induction l with
  | nil => exact ⟨[], rfl⟩
  | cons a l ih =>
    obtain ⟨y, hy⟩ := h a List.mem_cons_self
    obtain ⟨r, hr⟩ := ih fun x hx => h x (List.mem_cons_of_mem _ hx)
    exact ⟨y :: r, by rw [List.mapM_cons, hy, hr]; rfl⟩

theorem findLocal_some (I : Input) (e c i : Nat) (h : findLocal I e = some (c, i)) : (I.c2e c)[i]? = some e := by
  unfold findLocal at h
  split at h
  · split at h
    · rename_i hm
      simp only [Option.some.injEq, Prod.mk.injEq] at h
      obtain ⟨rfl, rfl⟩ := h
      rw [List.getElem?_eq_getElem (List.idxOf_lt_length_of_mem hm), List.getElem_idxOf]
    · cases h
  · cases h

theorem entityDofs_some (I : Input) (c i : Nat) (l : List Nat) (h : entityDofs I (c, i) = some l)
    (hs : ∀ index ∈ I.closure i, if I.ebs = I.bs then index < (I.cellDofs c).length
      else I.ebs * index + I.ebs ≤ (I.cellDofs c).length) (d : Nat) : d ∈ l ↔ OnCell I c i d := by
  unfold entityDofs at h
  unfold OnCell
  by_cases hb : I.ebs = I.bs
  · rw [if_pos hb] at h
    cases h
    simp only [List.mem_map]
    refine exists_congr fun index => and_congr_right fun hi => ?_
    have := hs index hi
    rw [if_pos hb] at this
    simp [hb, List.getD_eq_getElem?_getD, List.getElem?_eq_getElem this]
  · rw [if_neg hb] at h
    by_cases h1 : I.bs = 1
    · rw [if_pos h1] at h
      cases h
      simp only [List.mem_map, List.mem_flatMap, List.mem_range]
      refine exists_congr fun index => and_congr_right fun hi => ?_
      have := hs index hi
      rw [if_neg hb] at this
      simp only [hb, false_and, ne_eq, not_false_eq_true, true_and, false_or]
      refine exists_congr fun k => and_congr_right fun hk => ?_
      rw [h1]
      have hlt : I.ebs * index + k < (I.cellDofs c).length := by omega
      simp [List.getD_eq_getElem?_getD, List.getElem?_eq_getElem hlt, Nat.mod_one]
    · rw [if_neg h1] at h; cases h

/-- Each rank finds, sorted and without repetition, exactly the dofs on the closures of its marked entities: whatever cell of an entity
one looks at. -/
theorem C48_local (I : Input) (entities : List Nat) (hok : Spec.Locate.Ok I entities) :
    ∃ l, localDofs I entities = some l ∧ l.Pairwise (· < ·) ∧ ∀ d, d ∈ l ↔ ∃ e ∈ entities, OnEntity I e d := by
  have hfind : ∀ e ∈ entities, ∃ x, findLocal I e = some x := by
    intro e he
    obtain ⟨c, l, hc, hm⟩ := hok.attached e he
    exact ⟨_, by unfold findLocal; rw [hc]; exact if_pos hm⟩
  obtain ⟨xs, hxs⟩ := mapM_option_ok (findLocal I) entities hfind
  have hent : ∀ x ∈ xs, ∃ y, entityDofs I x = some y := by
    intro x _
    unfold entityDofs
    by_cases hb : I.ebs = I.bs
    · exact ⟨_, if_pos hb⟩
    · rw [if_neg hb]
      exact ⟨_, if_pos (hok.blocks.resolve_left hb)⟩
  obtain ⟨ls, hls⟩ := mapM_option_ok (entityDofs I) xs hent
  refine ⟨unique (sortNat ls.flatten), ?_, unique_sortNat_sorted _, ?_⟩
  · unfold localDofs; rw [hxs]; simp [hls]
  · intro d
    rw [mem_unique_sortNat, List.mem_flatten]
    constructor
    · rintro ⟨l, hl, hd⟩
      obtain ⟨⟨c, i⟩, hx, hy⟩ := (mapM_option_some _ _ _ hls l).mp hl
      obtain ⟨e, he, hf⟩ := (mapM_option_some _ _ _ hxs (c, i)).mp hx
      have hci := findLocal_some I e c i hf
      exact ⟨e, he, c, i, hci, (entityDofs_some I c i l hy (hok.size c i e hci) d).mp hd⟩
    · rintro ⟨e, he, c', i', hci', hd⟩
      obtain ⟨⟨c, i⟩, hf⟩ := hfind e he
      have hx := (mapM_option_some _ _ _ hxs (c, i)).mpr ⟨e, he, hf⟩
      obtain ⟨l, hl⟩ := hent _ hx
      have hci := findLocal_some I e c i hf
      exact ⟨l, (mapM_option_some _ _ _ hls l).mpr ⟨_, hx, hl⟩,
        (entityDofs_some I c i l hl (hok.size c i e hci) d).mpr ((hok.agree c i c' i' e d hci hci').mpr hd)⟩

/-- An entity without a cell, and a blocked dof map that does not fit the element, are errors. -/
theorem C48_rejects (I : Input) (entities : List Nat) :
    ((∃ e ∈ entities, I.e2c.length ≤ e) → localDofs I entities = none) ∧
    (I.ebs ≠ I.bs → I.bs ≠ 1 → entities ≠ [] → localDofs I entities = none) := by
  constructor
  · rintro ⟨e, he, hlt⟩
    unfold localDofs
    cases hm : entities.mapM (findLocal I) with
    | none => rfl
    | some xs =>
      exfalso
      have : ∀ (l : List Nat) (xs : List (Nat × Nat)), l.mapM (findLocal I) = some xs → e ∈ l → False := by
        intro l
        induction l with
        | nil => intro _ _ h; cases h
        | cons a l ih =>
          intro xs h hmem
          rw [List.mapM_cons] at h
          cases hf : findLocal I a with
          | none => rw [hf] at h; simp at h
          | some b =>
            cases hl : l.mapM (findLocal I) with
            | none => rw [hf, hl] at h; simp at h
            | some t =>
              rcases List.mem_cons.mp hmem with rfl | hmem
              · unfold findLocal at hf
                rw [List.getElem?_eq_none hlt] at hf
                cases hf
              · exact ih t hl hmem
      exact this entities xs hm he
  · intro h1 h2 hne
    unfold localDofs
    cases entities with
    | nil => exact absurd rfl hne
    | cons e l =>
      rw [List.mapM_cons]
      cases findLocal I e with
      | none => rfl
      | some x =>
        cases l.mapM (findLocal I) with
        | none => rfl
        | some t =>
          have : entityDofs I x = none := by unfold entityDofs; rw [if_neg h1, if_neg h2]
          simp [List.mapM_cons, this]

theorem div_block (B J k : Nat) (hk : k < B) : (B * J + k) / B = J ∧ (B * J + k) % B = k := by
  constructor
  · rw [Nat.mul_add_div (by omega), Nat.div_eq_of_lt hk, Nat.add_zero]
  · rw [Nat.mul_add_mod, Nat.mod_eq_of_lt hk]

theorem toLocal_iff (w : World) (hw : w.Valid) (q : Nat) (hq : q < w.P) (B J k d : Nat) (hk : k < B) :
    toLocal w B q (B * J + k) = some d ↔ ∃ i, globalOf w q i = some J ∧ d = B * i + k := by
  obtain ⟨h1, h2⟩ := div_block B J k hk
  unfold toLocal
  rw [h1, h2]
  by_cases ho : w.r0 q ≤ J ∧ J < w.r0 q + w.size q
  · rw [if_pos ho]
    have hg : globalOf w q (J - w.r0 q) = some J := by
      unfold globalOf; rw [if_pos (by omega)]; congr 1; omega
    have hsub : B * J + k - B * w.r0 q = B * (J - w.r0 q) + k := by
      obtain ⟨m, rfl⟩ := Nat.exists_eq_add_of_le ho.1
      rw [Nat.mul_add, Nat.add_sub_cancel_left]
      omega
    constructor
    · intro h
      exact ⟨_, hg, by rw [← hsub]; exact (Option.some.inj h).symm⟩
    · rintro ⟨i, hi, rfl⟩
      rw [hsub, SubMap.globalOf_inj w hw q hq i _ J hi hg]
  · rw [if_neg ho]
    constructor
    · intro h
      obtain ⟨x, hx, rfl⟩ := Option.map_eq_some_iff.mp h
      have hp := List.find?_some hx
      have hm := List.mem_of_find?_eq_some hx
      have := List.mem_zipIdx_iff_getElem?.mp hm
      simp only [decide_eq_true_eq] at hp
      refine ⟨x.2 + w.size q, ?_, rfl⟩
      unfold globalOf
      rw [if_neg (by omega), Nat.add_sub_cancel, this, hp]
    · rintro ⟨i, hi, rfl⟩
      have hni : ¬ i < w.size q := by
        intro hlt
        unfold globalOf at hi; rw [if_pos hlt] at hi
        have := Option.some.inj hi; omega
      have hgi : (w.ghosts q)[i - w.size q]? = some J := by
        unfold globalOf at hi; rwa [if_neg hni] at hi
      have hmem : (J, i - w.size q) ∈ (w.ghosts q).zipIdx := List.mem_zipIdx_iff_getElem?.mpr hgi
      cases hf : ((w.ghosts q).zipIdx).find? fun x => decide (x.1 = J) with
      | none =>
        have := List.find?_eq_none.mp hf _ hmem
        simp at this
      | some x =>
        have hp := List.find?_some hf
        have hm := List.mem_zipIdx_iff_getElem?.mp (List.mem_of_find?_eq_some hf)
        simp only [decide_eq_true_eq] at hp
        have hx : globalOf w q (x.2 + w.size q) = some J := by
          unfold globalOf
          rw [if_neg (by omega), Nat.add_sub_cancel, hm, hp]
        have := SubMap.globalOf_inj w hw q hq _ _ J hx hi
        simp [this]

/-- The dofs of a rank belong to its index map. -/
def LocOk (w : World) (B : Nat) (loc : Nat → List Nat) : Prop :=
  ∀ q, q < w.P → ∀ d ∈ loc q, d < B * (w.size q + (w.ghosts q).length)

theorem mem_neighbours (w : World) (q p : Nat) : p ∈ neighbours w q ↔ p ∈ w.src q ∨ p ∈ w.dest q := by
  unfold neighbours; rw [mem_unique_sortNat, List.mem_append]

/-- The neighbourhood is symmetric, as the communicator requires. -/
theorem C48_symmetric (w : World) (p q : Nat) (hp : p < w.P) (hq : q < w.P) :
    p ∈ neighbours w q ↔ q ∈ neighbours w p := by
  simp only [mem_neighbours, Scatterer.mem_dest, hp, hq, true_and]
  exact or_comm

theorem neighbour_lt (w : World) (hw : w.Valid) (q p : Nat) (hq : q < w.P) (h : p ∈ neighbours w q) : p < w.P := by
  rcases (mem_neighbours w q p).mp h with h | h
  · rw [Scatterer.mem_src] at h
    obtain ⟨k, hk, rfl⟩ := List.getElem_of_mem h
    have hl := hw.len q hq
    exact (hw.owner q hq k _ _ (List.getElem?_eq_getElem hk) (List.getElem?_eq_getElem (by omega))).1
  · exact ((Scatterer.mem_dest w q p).mp h).1

theorem globalDofs_mem (w : World) (B : Nat) (hB : 0 < B) (loc : Nat → List Nat) (p : Nat) (hp : p < w.P)
    (hl : LocOk w B loc) (g : Nat) : g ∈ globalDofs w B loc p ↔ ∃ J k, k < B ∧ g = B * J + k ∧ FoundBy w B loc p J k := by
  unfold globalDofs
  rw [List.mem_map]
  have key : ∀ d ∈ loc p, ∃ J, globalOf w p (d / B) = some J ∧
      (if B = 1 then ((w.map p).localToGlobal d).getD 0
        else B * ((w.map p).localToGlobal (d / B)).getD 0 + d % B) = B * J + d % B := by
    intro d hd
    obtain ⟨J, hJ⟩ := globalOf_some w p (d / B) (Nat.div_lt_of_lt_mul (hl p hp d hd))
    refine ⟨J, hJ, ?_⟩
    by_cases h1 : B = 1
    · rw [if_pos h1]; subst h1
      rw [Nat.div_one] at hJ
      rw [SubMap.localToGlobal_map, hJ, Nat.mod_one]; simp
    · rw [if_neg h1, SubMap.localToGlobal_map, hJ]; rfl
  constructor
  · rintro ⟨d, hd, rfl⟩
    obtain ⟨J, hJ, he⟩ := key d hd
    exact ⟨J, d % B, Nat.mod_lt _ hB, he, d / B, hJ, by rw [Nat.div_add_mod]; exact hd⟩
  · rintro ⟨J, k, hk, rfl, j, hj, hd⟩
    refine ⟨_, hd, ?_⟩
    obtain ⟨J', hJ', he⟩ := key _ hd
    obtain ⟨h1, h2⟩ := div_block B j k hk
    rw [h1] at hJ'
    rw [he, h2, ← Option.some.inj (hj.symm.trans hJ')]

/-- What a rank returns: what it found, and what the ranks in an owner-ghost relation with it found. -/
theorem C48_located (w : World) (hw : w.Valid) (mapBs bs B : Nat) (hB : B = if mapBs = bs then 1 else mapBs) (hpos : 0 < B)
    (loc : Nat → List Nat) (hl : LocOk w B loc) (q : Nat) (hq : q < w.P) :
    (locate w mapBs bs loc true q).Pairwise (· < ·) ∧
    ∀ i I k, globalOf w q i = some I → k < B →
      (B * i + k ∈ locate w mapBs bs loc true q ↔
        FoundBy w B loc q I k ∨ ∃ p, (p ∈ w.src q ∨ p ∈ w.dest q) ∧ FoundBy w B loc p I k) := by
  unfold locate
  rw [if_pos rfl, ← hB]
  refine ⟨unique_sortNat_sorted _, ?_⟩
  intro i I k hi hk
  rw [mem_unique_sortNat, List.mem_append]
  refine or_congr ?_ ?_
  · constructor
    · intro h; exact ⟨i, hi, h⟩
    · rintro ⟨j, hj, h⟩
      rwa [SubMap.globalOf_inj w hw q hq i j I hi hj]
  · have hrem : remoteDofs w B loc q = ((neighbours w q).flatMap (globalDofs w B loc)).filterMap (toLocal w B q) := by
      unfold remoteDofs
      by_cases h : neighbours w q = []
      · rw [if_pos h, h]; rfl
      · rw [if_neg h]
    rw [hrem, List.mem_filterMap]
    constructor
    · rintro ⟨g, hg, ht⟩
      obtain ⟨p, hp, hg⟩ := List.mem_flatMap.mp hg
      obtain ⟨J, k', hk', rfl, hf⟩ := (globalDofs_mem w B hpos loc p (neighbour_lt w hw q p hq hp) hl g).mp hg
      obtain ⟨i', hi', he⟩ := (toLocal_iff w hw q hq B J k' _ hk').mp ht
      obtain ⟨h1, h2⟩ := div_block B i k hk
      obtain ⟨h3, h4⟩ := div_block B i' k' hk'
      have hii : i = i' := by rw [← h1, he, h3]
      have hkk : k = k' := by rw [← h2, he, h4]
      subst hii hkk
      obtain rfl := Option.some.inj (hi.symm.trans hi')
      exact ⟨p, (mem_neighbours w q p).mp hp, hf⟩
    · rintro ⟨p, hp, hf⟩
      have hp := (mem_neighbours w q p).mpr hp
      exact ⟨B * I + k, List.mem_flatMap.mpr ⟨p, hp,
        (globalDofs_mem w B hpos loc p (neighbour_lt w hw q p hq hp) hl _).mpr ⟨I, k, hk, rfl, hf⟩⟩,
        (toLocal_iff w hw q hq B I k _ hk).mpr ⟨i, hi, rfl⟩⟩

/-- Nothing outside the index map of the rank is returned. -/
theorem C48_in_map (w : World) (hw : w.Valid) (mapBs bs B : Nat) (hB : B = if mapBs = bs then 1 else mapBs) (hpos : 0 < B)
    (loc : Nat → List Nat) (hl : LocOk w B loc) (q : Nat) (hq : q < w.P) :
    ∀ d ∈ locate w mapBs bs loc true q, d < B * (w.size q + (w.ghosts q).length) := by
  intro d hd
  unfold locate at hd
  rw [if_pos rfl, ← hB, mem_unique_sortNat, List.mem_append] at hd
  rcases hd with hd | hd
  · exact hl q hq d hd
  · unfold remoteDofs at hd
    split at hd
    · cases hd
    · obtain ⟨g, hg, ht⟩ := List.mem_filterMap.mp hd
      obtain ⟨p, hp, hg⟩ := List.mem_flatMap.mp hg
      obtain ⟨J, k', hk', rfl, hf⟩ := (globalDofs_mem w B hpos loc p (neighbour_lt w hw q p hq hp) hl g).mp hg
      obtain ⟨i', hi', rfl⟩ := (toLocal_iff w hw q hq B J k' _ hk').mp ht
      have h1 := SubMap.globalOf_lt w q i' J hi'
      have h2 : B * (i' + 1) ≤ B * (w.size q + (w.ghosts q).length) := Nat.mul_le_mul_left _ h1
      rw [Nat.mul_succ] at h2
      omega

/-- Owner and ghost ranks are neighbours. -/
theorem ghost_neighbour (w : World) (hw : w.Valid) (o q : Nat) (hq : q < w.P) (J i : Nat) (ho : Owns w o J)
    (hi : globalOf w q i = some J) (hne : o ≠ q) : o ∈ w.src q ∧ q ∈ w.dest o := by
  have hng : ¬ i < w.size q := by
    intro hlt
    exact hne (SubMap.owns_unique w o q J ho ((globalOf_owned w hw q i J hq hi).mpr hlt))
  have hgi : (w.ghosts q)[i - w.size q]? = some J := by
    unfold globalOf at hi; rwa [if_neg hng] at hi
  have hlt := (List.getElem?_eq_some_iff.mp hgi).1
  have hl := hw.len q hq
  have hlo : i - w.size q < (w.owners q).length := by omega
  have hown := hw.owner q hq _ _ _ (List.getElem?_eq_getElem hlo) hgi
  have : o ∈ w.src q := by
    rw [Scatterer.mem_src]
    have : o = (w.owners q)[i - w.size q] := SubMap.owns_unique w _ _ J ho ⟨hown.1, hown.2.2.1, hown.2.2.2⟩
    rw [this]; exact List.getElem_mem _
  exact ⟨this, (Scatterer.mem_dest w o q).mpr ⟨hq, this⟩⟩

theorem owner_has (w : World) (o J : Nat) (ho : Owns w o J) : globalOf w o (J - w.r0 o) = some J := by
  unfold globalOf; rw [if_pos (by have := ho.2; omega)]; congr 1; have := ho.2; omega

/-- If any rank finds a dof, its owner returns it. -/
theorem C48_owner (w : World) (hw : w.Valid) (mapBs bs B : Nat) (hB : B = if mapBs = bs then 1 else mapBs) (hpos : 0 < B)
    (loc : Nat → List Nat) (hl : LocOk w B loc) (p : Nat) (hp : p < w.P) (J k : Nat) (hk : k < B)
    (hf : FoundBy w B loc p J k) (o : Nat) (ho : Owns w o J) :
    B * (J - w.r0 o) + k ∈ locate w mapBs bs loc true o := by
  refine ((C48_located w hw mapBs bs B hB hpos loc hl o ho.1).2 _ J k (owner_has w o J ho) hk).mpr ?_
  by_cases hpo : p = o
  · subst hpo; exact Or.inl hf
  · obtain ⟨j, hj, _⟩ := id hf
    exact Or.inr ⟨p, Or.inr (ghost_neighbour w hw o p hp J j ho hj (Ne.symm hpo)).2, hf⟩

/-- All ranks that have a dof agree, if whatever is found is found by the owner too. -/
theorem C48_consistent_partial (w : World) (hw : w.Valid) (mapBs bs B : Nat) (hB : B = if mapBs = bs then 1 else mapBs)
    (hpos : 0 < B) (loc : Nat → List Nat) (hl : LocOk w B loc)
    (hown : ∀ p, p < w.P → ∀ J k, k < B → FoundBy w B loc p J k → ∀ o, Owns w o J → FoundBy w B loc o J k) :
    ∀ q, q < w.P → ∀ i I k, globalOf w q i = some I → k < B →
      (B * i + k ∈ locate w mapBs bs loc true q ↔ ∃ p, p < w.P ∧ FoundBy w B loc p I k) := by
  intro q hq i I k hi hk
  rw [(C48_located w hw mapBs bs B hB hpos loc hl q hq).2 i I k hi hk]
  constructor
  · rintro (h | ⟨p, hp, h⟩)
    · exact ⟨q, hq, h⟩
    · exact ⟨p, neighbour_lt w hw q p hq ((mem_neighbours w q p).mpr hp), h⟩
  · rintro ⟨p, hp, h⟩
    obtain ⟨o, ho⟩ := SubMap.owns_of_globalOf w hw q hq i I hi
    have hfo := hown p hp I k hk h o ho
    by_cases hoq : o = q
    · subst hoq; exact Or.inl hfo
    · exact Or.inr ⟨o, Or.inl (ghost_neighbour w hw o q hq I i ho hi hoq).1, hfo⟩

/-- Two ranks agree about a dof in any case if one of them owns it and only the two have it. -/
theorem C48_consistent_pair_partial (w : World) (hw : w.Valid) (mapBs bs B : Nat) (hB : B = if mapBs = bs then 1 else mapBs)
    (hpos : 0 < B) (loc : Nat → List Nat) (hl : LocOk w B loc) (o r : Nat) (hr : r < w.P) (I : Nat) (ho : Owns w o I)
    (honly : ∀ p, p < w.P → ∀ j, globalOf w p j = some I → p = o ∨ p = r)
    (q : Nat) (hq : q < w.P) (i k : Nat) (hi : globalOf w q i = some I) (hk : k < B) :
    B * i + k ∈ locate w mapBs bs loc true q ↔ ∃ p, p < w.P ∧ FoundBy w B loc p I k := by
  rw [(C48_located w hw mapBs bs B hB hpos loc hl q hq).2 i I k hi hk]
  constructor
  · rintro (h | ⟨p, hp, h⟩)
    · exact ⟨q, hq, h⟩
    · exact ⟨p, neighbour_lt w hw q p hq ((mem_neighbours w q p).mpr hp), h⟩
  · rintro ⟨p, hp, h⟩
    by_cases hpq : p = q
    · subst hpq; exact Or.inl h
    · obtain ⟨j, hj, _⟩ := id h
      rcases honly p hp j hj with rfl | rfl
      · exact Or.inr ⟨p, Or.inl (ghost_neighbour w hw p q hq I i ho hi hpq).1, h⟩
      · have hqo : q = o := (honly q hq i hi).resolve_right (Ne.symm hpq)
        subst hqo
        exact Or.inr ⟨p, Or.inr (ghost_neighbour w hw q p hp I j ho hj (Ne.symm hpq)).2, h⟩

/-- Boundary conditions made from the located dofs are what the assembled system needs. -/
theorem C48_condition_partial {R : Type} (w : World) (hw : w.Valid) (loc : Nat → List Nat) (hl : LocOk w 1 loc) (bs : Nat)
    (bcs : Nat → List (Assembly.BC R × Bool))
    (hbc : ∀ q, q < w.P → ∀ i k, k < bs → (Assemble.Constrained (bcs q) (bs * i + k) ↔ i ∈ locate w bs bs loc true q))
    (hown : ∀ p, p < w.P → ∀ J k, k < 1 → FoundBy w 1 loc p J k → ∀ o, Owns w o J → FoundBy w 1 loc o J k) :
    Assemble.Consistent w bs bcs fun I _ => ∃ p, p < w.P ∧ FoundBy w 1 loc p I 0 := by
  intro q hq i I k hi hk
  rw [hbc q hq i k hk]
  have := C48_consistent_partial w hw bs bs 1 (by simp) Nat.one_pos loc hl hown q hq i I 0 hi Nat.one_pos
  simpa using this

/-- Three ranks: rank 0 owns global 0, which ranks 1 and 2 have as a ghost. -/
def locWorld : World where
  P := 3
  size := fun q => if q = 0 then 2 else 1
  ghosts := fun q => if q = 0 then [] else [0]
  owners := fun q => if q = 0 then [] else [0]

theorem locWorld_valid : locWorld.Valid := by
  refine ⟨?_, ?_, ?_⟩
  · intro q _; rfl
  · intro q _; simp only [locWorld]; split <;> simp
  · intro q hq k o g ho hg
    have hq : q < 3 := hq
    simp only [locWorld] at ho hg
    split at ho
    · simp at ho
    · rename_i h0
      rw [if_neg h0] at hg
      rcases k with _ | k
      · simp at ho hg
        subst ho hg
        refine ⟨by simp [locWorld], by omega, ?_⟩
        simp [World.r0, Offsets.excl, locWorld]
      · simp at ho

/-- Only rank 1 has a cell with the marked entity. -/
def locFound (q : Nat) : List Nat := if q = 1 then [1] else []

theorem locFound_ok : LocOk locWorld 1 locFound := by
  intro q hq d hd
  simp only [locFound] at hd
  split at hd
  · rename_i h; subst h; simp at hd; subst hd; decide
  · cases hd

/-- The dofs found are not passed on by the owner: rank 1 finds a dof, the owner, rank 0, learns it, but
rank 2, which has the same dof as a ghost, does not. -/
theorem C48_refuted_second_neighbour :
    locWorld.Valid ∧ LocOk locWorld 1 locFound ∧
    globalOf locWorld 0 0 = some 0 ∧ globalOf locWorld 1 1 = some 0 ∧ globalOf locWorld 2 1 = some 0 ∧
    locate locWorld 1 1 locFound true 0 = [0] ∧ locate locWorld 1 1 locFound true 1 = [1] ∧
    locate locWorld 1 1 locFound true 2 = [] :=
  ⟨locWorld_valid, locFound_ok, by decide, by decide, by decide, by decide +kernel, by decide +kernel, by decide +kernel⟩

/-- An example with a blocked map: the owner finds component 1 of its block. -/
def locFoundB (q : Nat) : List Nat := if q = 0 then [1, 3] else if q = 1 then [3] else []

example : LocOk locWorld 2 locFoundB ∧ locate locWorld 2 1 locFoundB true 0 = [1, 3] ∧ locate locWorld 2 1 locFoundB true 1 = [3] ∧
    locate locWorld 2 1 locFoundB true 2 = [3] := by
  refine ⟨?_, by decide +kernel, by decide +kernel, by decide +kernel⟩
  intro q hq d hd
  have : q = 0 ∨ q = 1 ∨ q = 2 := by have : q < 3 := hq; omega
  rcases this with rfl | rfl | rfl <;> simp [locFoundB] at hd <;> simp [locWorld] <;> omega

/-- The hypothesis of `C48_consistent_partial` is met there. -/
example : ∀ p, p < locWorld.P → ∀ J k, k < 2 → FoundBy locWorld 2 locFoundB p J k → ∀ o, Owns locWorld o J →
    FoundBy locWorld 2 locFoundB o J k := by
  intro p hp J k hk hf o ho
  obtain ⟨j, hj, hm⟩ := hf
  have hp3 : p = 0 ∨ p = 1 ∨ p = 2 := by have : p < 3 := hp; omega
  have hJ : J = 0 ∧ k = 1 ∨ J = 1 ∧ k = 1 := by
    rcases hp3 with rfl | rfl | rfl
    · simp only [locFoundB, if_true, List.mem_cons, List.not_mem_nil, or_false] at hm
      have : j = 0 ∨ j = 1 := by omega
      rcases this with rfl | rfl <;> simp [globalOf, locWorld, World.r0, Offsets.excl] at hj <;> omega
    · simp [locFoundB] at hm
      have : j = 1 := by omega
      subst this
      simp [globalOf, locWorld] at hj
      omega
    · simp [locFoundB] at hm
  have hJ0 : Owns locWorld 0 J := by
    rcases hJ with ⟨rfl, _⟩ | ⟨rfl, _⟩ <;> simp [Owns, locWorld, World.r0, Offsets.excl]
  obtain rfl := SubMap.owns_unique locWorld o 0 J ho hJ0
  refine ⟨J, ?_, ?_⟩
  · have h1 := hJ0.2
    simp [locWorld, World.r0, Offsets.excl] at h1
    simp [globalOf, locWorld, World.r0, Offsets.excl]
    omega
  · rcases hJ with ⟨rfl, rfl⟩ | ⟨rfl, rfl⟩ <;> simp [locFoundB]

/-- Two triangles sharing an edge (entities: edges, quadratic dofs: three vertices, three edges). -/
def locInput : Input where
  e2c := [[0], [0], [0, 1], [1], [1]]
  c2e := fun c => if c = 0 then [2, 0, 1] else if c = 1 then [2, 3, 4] else []
  cellDofs := fun c => if c = 0 then [0, 1, 2, 4, 5, 6] else if c = 1 then [3, 1, 2, 4, 7, 8] else []
  closure := fun i => if i = 0 then [1, 2, 3] else if i = 1 then [0, 2, 4] else [0, 1, 5]
  bs := 1
  ebs := 1

theorem locInput_cell (c i e : Nat) (h : (locInput.c2e c)[i]? = some e) : (c = 0 ∧ (i = 0 ∧ e = 2 ∨ i = 1 ∧ e = 0 ∨ i = 2 ∧ e = 1)) ∨
    (c = 1 ∧ (i = 0 ∧ e = 2 ∨ i = 1 ∧ e = 3 ∨ i = 2 ∧ e = 4)) := by
  simp only [locInput] at h
  split at h
  · rcases i with _ | _ | _ | i <;> simp at h <;> omega
  · split at h
    · rcases i with _ | _ | _ | i <;> simp at h <;> omega
    · cases h

/-- The hypotheses of `C48_local` are met. -/
example : Spec.Locate.Ok locInput [2, 3] ∧ localDofs locInput [2, 3] = some [1, 2, 3, 4, 7] := by
  refine ⟨⟨?_, ?_, Or.inl rfl, ?_⟩, by decide +kernel⟩
  · intro e he
    simp only [List.mem_cons, List.not_mem_nil, or_false] at he
    rcases he with rfl | rfl
    · exact ⟨0, [1], rfl, by decide⟩
    · exact ⟨1, [], rfl, by decide⟩
  · intro c i e h index hi
    rw [if_pos (show locInput.ebs = locInput.bs from rfl)]
    rcases locInput_cell c i e h with ⟨rfl, ⟨rfl, _⟩ | ⟨rfl, _⟩ | ⟨rfl, _⟩⟩ | ⟨rfl, ⟨rfl, _⟩ | ⟨rfl, _⟩ | ⟨rfl, _⟩⟩ <;>
      simp [locInput] at hi ⊢ <;> omega
  · intro c i c' i' e d h h'
    rcases locInput_cell c i e h with ⟨rfl, ⟨rfl, rfl⟩ | ⟨rfl, rfl⟩ | ⟨rfl, rfl⟩⟩ | ⟨rfl, ⟨rfl, rfl⟩ | ⟨rfl, rfl⟩ | ⟨rfl, rfl⟩⟩ <;>
    rcases locInput_cell c' i' _ h' with ⟨rfl, ⟨rfl, he⟩ | ⟨rfl, he⟩ | ⟨rfl, he⟩⟩ | ⟨rfl, ⟨rfl, he⟩ | ⟨rfl, he⟩ | ⟨rfl, he⟩⟩ <;>
      first
        | exact absurd he (by decide)
        | (simp [OnCell, locInput])

end Verif.Props
