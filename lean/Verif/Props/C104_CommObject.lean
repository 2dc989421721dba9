import Verif.Spec.CommObject
import Verif.Prelude
/-!
# C104: communicators are freed exactly once
-/
namespace Verif.Props
open Verif.CommObject Verif.Spec.CommObject

/-- Invariant: every live communicator is the program's or is held by one object; freed ones are not live. -/
structure CommInv (m : Mem) (mine : List Nat) : Prop where
  nodup : m.live.Nodup
  mineNodup : mine.Nodup
  below : ∀ h ∈ m.live, h < m.next
  mineLive : ∀ h ∈ mine, h ∈ m.live
  held : ∀ x h, m.obj x = some (some h) → h ∈ m.live ∧ h ∉ mine
  unique : ∀ x y h, m.obj x = some (some h) → m.obj y = some (some h) → x = y
  owner : ∀ h ∈ m.live, h ∈ mine ∨ ∃ x, m.obj x = some (some h)
  freedNodup : m.freed.Nodup
  freedDead : ∀ h ∈ m.freed, h ∉ m.live ∧ h < m.next
  createdNodup : m.created.Nodup
  created : ∀ h ∈ m.created, h < m.next ∧ h ∉ mine ∧ (h ∈ m.live ∨ h ∈ m.freed)

theorem obj_set (m : Mem) (x y : Nat) (v : Option (Option Nat)) : (m.set x v).obj y = if y = x then v else m.obj y := rfl

/-- An object without communicator is made, changed or removed. -/
theorem inv_null (m : Mem) (mine : List Nat) (x : Nat) (v : Option (Option Nat)) (hi : CommInv m mine) (hx : ∀ h, m.obj x ≠ some (some h))
    (hv : ∀ h, v ≠ some (some h)) : CommInv (m.set x v) mine := by
  have hobj : ∀ y h, (m.set x v).obj y = some (some h) ↔ m.obj y = some (some h) := by
    intro y h
    rw [obj_set]
    split
    · rename_i e; subst e; exact ⟨fun e => absurd e (hv h), fun e => absurd e (hx h)⟩
    · rfl
  exact { nodup := hi.nodup, mineNodup := hi.mineNodup, below := hi.below, mineLive := hi.mineLive,
          held := fun y h e => hi.held y h ((hobj y h).mp e),
          unique := fun y z h e e' => hi.unique y z h ((hobj y h).mp e) ((hobj z h).mp e'),
          owner := fun h hh => (hi.owner h hh).imp id fun ⟨y, e⟩ => ⟨y, (hobj y h).mpr e⟩,
          freedNodup := hi.freedNodup, freedDead := hi.freedDead, createdNodup := hi.createdNodup, created := hi.created }

/-- A communicator goes from object `y` to object `x`, which has none. -/
theorem inv_move (m : Mem) (mine : List Nat) (x y : Nat) (c : Option Nat) (hi : CommInv m mine) (hx : ∀ h, m.obj x ≠ some (some h)) (hy : m.obj y = some c) :
    CommInv ((m.set x (some c)).set y (some none)) mine := by
  by_cases hxy : x = y
  · subst hxy
    have hc : c = none := by
      cases c with
      | none => rfl
      | some h => exact absurd hy (hx h)
    subst hc
    have h1 := inv_null m mine x (some none) hi hx (by simp)
    exact inv_null _ mine x (some none) h1 (by intro h; rw [obj_set, if_pos rfl]; simp) (by simp)
  have hobj : ∀ z, ((m.set x (some c)).set y (some none)).obj z = if z = y then some none else if z = x then some c else m.obj z := fun z => rfl
  have hto : ∀ z h, ((m.set x (some c)).set y (some none)).obj z = some (some h) → ∃ z', m.obj z' = some (some h) ∧ (z' = z ∨ (z' = y ∧ z = x)) := by
    intro z h e
    rw [hobj] at e
    split at e
    · cases e
    · split at e
      · rename_i e'
        exact ⟨y, hy.trans e, Or.inr ⟨rfl, e'⟩⟩
      · exact ⟨z, e, Or.inl rfl⟩
  exact { nodup := hi.nodup, mineNodup := hi.mineNodup, below := hi.below, mineLive := hi.mineLive,
          held := fun z h e => by obtain ⟨z', e', _⟩ := hto z h e; exact hi.held z' h e',
          unique := by
            intro z w h e e'
            rw [hobj] at e e'
            split at e
            · cases e
            · split at e'
              · cases e'
              · rename_i hz hw
                by_cases zx : z = x <;> by_cases wx : w = x
                · rw [zx, wx]
                · rw [if_pos zx] at e
                  rw [if_neg wx] at e'
                  exact absurd (hi.unique w y h e' (hy.trans e)) hw
                · rw [if_neg zx] at e
                  rw [if_pos wx] at e'
                  exact absurd (hi.unique z y h e (hy.trans e')) hz
                · rw [if_neg zx] at e
                  rw [if_neg wx] at e'
                  exact hi.unique z w h e e'
          owner := by
            intro h hh
            refine (hi.owner h hh).imp id ?_
            rintro ⟨z, e⟩
            by_cases zy : z = y
            · subst zy
              refine ⟨x, ?_⟩
              rw [hobj, if_neg hxy, if_pos rfl, ← hy, e]
            · refine ⟨z, ?_⟩
              rw [hobj, if_neg zy, if_neg (fun e' : z = x => hx h (e' ▸ e)), e]
          freedNodup := hi.freedNodup, freedDead := hi.freedDead, createdNodup := hi.createdNodup, created := hi.created }

/-- Releasing works and leaves the object without communicator; other objects keep theirs. -/
theorem inv_release (m : Mem) (mine : List Nat) (x : Nat) (hi : CommInv m mine) (hx : m.obj x ≠ none) :
    ∃ m', release m x = some m' ∧ CommInv m' mine ∧ m'.obj x = some none ∧ (∀ y, y ≠ x → m'.obj y = m.obj y) ∧ m'.grp = m.grp ∧
      ∀ h, m.obj x = some (some h) → h ∈ m'.freed := by
  unfold release
  split
  · rename_i h; exact absurd h hx
  · rename_i h; exact ⟨m, rfl, hi, h, fun _ _ => rfl, rfl, fun h' e => by rw [h] at e; cases e⟩
  · rename_i h hh
    obtain ⟨h1, h2⟩ := hi.held x h hh
    unfold free
    rw [if_pos h1]
    refine ⟨_, rfl, ?_, by rw [obj_set, if_pos rfl], fun y hy => by rw [obj_set, if_neg hy], rfl, ?_⟩
    · have hto : ∀ z g, (({ m with live := m.live.erase h, freed := m.freed ++ [h] } : Mem).set x (some none)).obj z = some (some g) → z ≠ x ∧ m.obj z = some (some g) := by
        intro z g e
        rw [obj_set] at e
        split at e
        · cases e
        · exact ⟨‹_›, e⟩
      have hmem : ∀ g, g ∈ m.live.erase h ↔ g ≠ h ∧ g ∈ m.live := fun g => hi.nodup.mem_erase_iff
      exact { nodup := hi.nodup.erase _, mineNodup := hi.mineNodup, below := fun g hg => hi.below g ((hmem g).mp hg).2,
              mineLive := fun g hg => (hmem g).mpr ⟨fun e => h2 (e ▸ hg), hi.mineLive g hg⟩,
              held := by
                intro z g e
                obtain ⟨hz, e⟩ := hto z g e
                have := hi.held z g e
                exact ⟨(hmem g).mpr ⟨fun e' => hz (hi.unique z x h (e' ▸ e) hh), this.1⟩, this.2⟩,
              unique := fun z w g e e' => hi.unique z w g (hto z g e).2 (hto w g e').2,
              owner := by
                intro g hg
                obtain ⟨g1, g2⟩ := (hmem g).mp hg
                refine (hi.owner g g2).imp id ?_
                rintro ⟨z, e⟩
                refine ⟨z, ?_⟩
                rw [obj_set, if_neg]
                · exact e
                · rintro rfl
                  rw [hh] at e
                  exact g1 (Option.some.inj (Option.some.inj e)).symm
              freedNodup := by
                show (m.freed ++ [h]).Nodup
                rw [List.nodup_append]
                refine ⟨hi.freedNodup, by simp, ?_⟩
                intro a ha b hb
                rw [List.mem_singleton.mp hb]
                rintro rfl
                exact (hi.freedDead a ha).1 h1
              freedDead := by
                intro g hg
                rcases List.mem_append.mp hg with hg | hg
                · have := hi.freedDead g hg
                  exact ⟨fun e => this.1 ((hmem g).mp e).2, this.2⟩
                · rw [List.mem_singleton.mp hg]
                  exact ⟨fun e => ((hmem h).mp e).1 rfl, hi.below h h1⟩
              createdNodup := hi.createdNodup,
              created := by
                intro g hg
                obtain ⟨g1, g2, g3⟩ := hi.created g hg
                refine ⟨g1, g2, ?_⟩
                by_cases e : g = h
                · exact Or.inr (by rw [e]; exact List.mem_append.mpr (Or.inr (List.mem_singleton.mpr rfl)))
                · exact g3.imp (fun g3 => (hmem g).mpr ⟨e, g3⟩) (fun g3 => List.mem_append.mpr (Or.inl g3)) }
    · intro g e
      rw [hh] at e
      rw [← Option.some.inj (Option.some.inj e)]
      exact List.mem_append.mpr (Or.inr (List.mem_singleton.mpr rfl))

/-- A new communicator, for the program or for an object that has none. -/
theorem inv_new (m m' : Mem) (mine : List Nat) (x : Nat) (hi : CommInv m mine) (hx : ∀ h, m.obj x ≠ some (some h)) (hl : m'.live = m.next :: m.live) (hn : m'.next = m.next + 1)
    (hf : m'.freed = m.freed) (hc : m'.created = m.created ++ [m.next]) (ho : ∀ y, m'.obj y = if y = x then some (some m.next) else m.obj y) : CommInv m' mine := by
  have hnl : m.next ∉ m.live := fun h => Nat.lt_irrefl _ (hi.below _ h)
  have hto : ∀ z g, m'.obj z = some (some g) → (z = x ∧ g = m.next) ∨ (z ≠ x ∧ m.obj z = some (some g)) := by
    intro z g e
    rw [ho] at e
    split at e
    · exact Or.inl ⟨‹_›, (Option.some.inj (Option.some.inj e)).symm⟩
    · exact Or.inr ⟨‹_›, e⟩
  exact { nodup := by rw [hl]; exact List.nodup_cons.mpr ⟨hnl, hi.nodup⟩, mineNodup := hi.mineNodup,
          below := by
            intro h hh
            rw [hl] at hh
            rw [hn]
            rcases List.mem_cons.mp hh with e | hh
            · omega
            · have := hi.below h hh; omega
          mineLive := fun h hh => by rw [hl]; exact List.mem_cons_of_mem _ (hi.mineLive h hh),
          held := by
            intro z g e
            rw [hl]
            rcases hto z g e with ⟨-, e⟩ | ⟨-, e⟩
            · rw [e]; exact ⟨List.mem_cons_self, fun hm => hnl (hi.mineLive _ hm)⟩
            · exact ⟨List.mem_cons_of_mem _ (hi.held z g e).1, (hi.held z g e).2⟩
          unique := by
            intro z w g e e'
            rcases hto z g e with ⟨h1, h2⟩ | ⟨h1, h2⟩ <;> rcases hto w g e' with ⟨h3, h4⟩ | ⟨h3, h4⟩
            · rw [h1, h3]
            · rw [h2] at h4; exact absurd (hi.held w _ h4).1 hnl
            · rw [h4] at h2; exact absurd (hi.held z _ h2).1 hnl
            · exact hi.unique z w g h2 h4
          owner := by
            intro h hh
            rw [hl] at hh
            rcases List.mem_cons.mp hh with e | hh
            · exact Or.inr ⟨x, by rw [ho, if_pos rfl, e]⟩
            · refine (hi.owner h hh).imp id ?_
              rintro ⟨z, e⟩
              exact ⟨z, by rw [ho, if_neg (fun e' : z = x => hx h (e' ▸ e))]; exact e⟩
          freedNodup := by rw [hf]; exact hi.freedNodup
          freedDead := by
            intro h hh
            rw [hf] at hh
            have := hi.freedDead h hh
            rw [hl, hn]
            refine ⟨fun e => ?_, by omega⟩
            rcases List.mem_cons.mp e with e | e
            · omega
            · exact this.1 e
          createdNodup := by
            rw [hc, List.nodup_append]
            refine ⟨hi.createdNodup, by simp, ?_⟩
            intro a ha b hb
            rw [List.mem_singleton.mp hb]
            have := (hi.created a ha).1
            omega
          created := by
            intro h hh
            rw [hc] at hh
            rw [hl, hn, hf]
            rcases List.mem_append.mp hh with hh | hh
            · obtain ⟨h1, h2, h3⟩ := hi.created h hh
              exact ⟨by omega, h2, h3.imp (List.mem_cons_of_mem _) id⟩
            · rw [List.mem_singleton.mp hh]
              exact ⟨by omega, fun hm => hnl (hi.mineLive _ hm), Or.inl List.mem_cons_self⟩ }

/-- The program hands a communicator over. -/
theorem inv_hand (m : Mem) (mine : List Nat) (x h : Nat) (hi : CommInv m mine) (hx : m.obj x = none) (hh : h ∈ mine) : CommInv (m.set x (some (some h))) (mine.erase h) := by
  have hmem : ∀ g, g ∈ mine.erase h ↔ g ≠ h ∧ g ∈ mine := fun g => hi.mineNodup.mem_erase_iff
  have hto : ∀ z g, (m.set x (some (some h))).obj z = some (some g) → (z = x ∧ g = h) ∨ (z ≠ x ∧ m.obj z = some (some g)) := by
    intro z g e
    rw [obj_set] at e
    split at e
    · exact Or.inl ⟨‹_›, (Option.some.inj (Option.some.inj e)).symm⟩
    · exact Or.inr ⟨‹_›, e⟩
  exact { nodup := hi.nodup, mineNodup := hi.mineNodup.erase _, below := hi.below, mineLive := fun g hg => hi.mineLive g ((hmem g).mp hg).2,
          held := by
            intro z g e
            rcases hto z g e with ⟨-, e⟩ | ⟨-, e⟩
            · rw [e]; exact ⟨hi.mineLive h hh, fun h' => ((hmem h).mp h').1 rfl⟩
            · exact ⟨(hi.held z g e).1, fun h' => (hi.held z g e).2 ((hmem g).mp h').2⟩
          unique := by
            intro z w g e e'
            rcases hto z g e with ⟨h1, h2⟩ | ⟨h1, h2⟩ <;> rcases hto w g e' with ⟨h3, h4⟩ | ⟨h3, h4⟩
            · rw [h1, h3]
            · rw [h2] at h4; exact absurd hh (hi.held w _ h4).2
            · rw [h4] at h2; exact absurd hh (hi.held z _ h2).2
            · exact hi.unique z w g h2 h4
          owner := by
            intro g hg
            by_cases e : g = h
            · exact Or.inr ⟨x, by rw [obj_set, if_pos rfl, e]⟩
            · refine (hi.owner g hg).imp (fun h' => (hmem g).mpr ⟨e, h'⟩) ?_
              rintro ⟨z, e⟩
              refine ⟨z, ?_⟩
              rw [obj_set, if_neg]
              · exact e
              · rintro rfl; rw [hx] at e; cases e
          freedNodup := hi.freedNodup, freedDead := hi.freedDead, createdNodup := hi.createdNodup,
          created := fun g hg => ⟨(hi.created g hg).1, fun h' => (hi.created g hg).2.1 ((hmem g).mp h').2, (hi.created g hg).2.2⟩ }

theorem dup_ok (m : Mem) (mine : List Nat) (x h : Nat) (hi : CommInv m mine) (hx : m.obj x = none) (hh : h ∈ m.live) :
    ∃ m', construct m x (some h) true = some m' ∧ CommInv m' mine ∧ m'.obj x = some (some m.next) ∧ (∀ y, y ≠ x → m'.obj y = m.obj y) ∧
      m'.grp m.next = m.grp h ∧ (∀ g ∈ m.live, m'.grp g = m.grp g) := by
  unfold construct dup
  simp only
  rw [if_pos hh]
  refine ⟨_, rfl, ?_, by rw [obj_set, if_pos rfl], fun y hy => by rw [obj_set, if_neg hy], ?_, ?_⟩
  · exact inv_new m _ mine x hi (fun g e => by rw [hx] at e; cases e) rfl rfl rfl rfl (fun y => rfl)
  · show (if m.next = m.next then m.grp h else m.grp m.next) = _
    rw [if_pos rfl]
  · intro g hg
    show (if g = m.next then m.grp h else m.grp g) = _
    rw [if_neg (fun e => Nat.lt_irrefl _ (e ▸ hi.below g hg))]

theorem comm_step (m : Mem) (mine : List Nat) (op : Op) (hi : CommInv m mine) (hl : Legal m mine op) :
    ∃ m', step m op = some m' ∧ CommInv m' (mineAfter m mine op) := by
  cases op with
  | construct x c d =>
    obtain ⟨hx, hc⟩ := hl
    cases d with
    | true =>
      cases c with
      | none => exact ⟨_, rfl, inv_null m mine x _ hi (fun h e => by rw [hx] at e; cases e) (by simp)⟩
      | some h =>
        obtain ⟨m', h1, h2, _⟩ := dup_ok m mine x h hi hx (by simpa using hc h rfl)
        exact ⟨m', h1, h2⟩
    | false =>
      cases c with
      | none => exact ⟨_, rfl, inv_null m mine x _ hi (fun h e => by rw [hx] at e; cases e) (by simp)⟩
      | some h => exact ⟨_, rfl, inv_hand m mine x h hi hx (by simpa using hc h rfl)⟩
  | copy x y =>
    obtain ⟨hx, hy⟩ := hl
    obtain ⟨c, hc⟩ := Option.ne_none_iff_exists'.mp hy
    unfold step copy
    simp only [hc, Option.bind_some]
    cases c with
    | none => exact ⟨_, rfl, inv_null m mine x _ hi (fun h e => by rw [hx] at e; cases e) (by simp)⟩
    | some h =>
      obtain ⟨m', h1, h2, _⟩ := dup_ok m mine x h hi hx (hi.held y h hc).1
      exact ⟨m', h1, h2⟩
  | move x y =>
    obtain ⟨hx, hy⟩ := hl
    obtain ⟨c, hc⟩ := Option.ne_none_iff_exists'.mp hy
    unfold step move
    simp only [hc, Option.map_some]
    exact ⟨_, rfl, inv_move m mine x y c hi (fun h e => by rw [hx] at e; cases e) hc⟩
  | assign x y =>
    obtain ⟨hx, hy⟩ := hl
    obtain ⟨m1, h1, h2, h3, h4, _⟩ := inv_release m mine x hi hx
    have hy1 : m1.obj y ≠ none := by
      by_cases e : y = x
      · rw [e, h3]; simp
      · rw [h4 y e]; exact hy
    obtain ⟨c, hc⟩ := Option.ne_none_iff_exists'.mp hy1
    unfold step assign
    simp only [h1, Option.bind_some, hc, Option.map_some]
    exact ⟨_, rfl, inv_move m1 mine x y c h2 (fun h e => by rw [h3] at e; cases e) hc⟩
  | destroy x =>
    obtain ⟨m1, h1, h2, h3, h4, _⟩ := inv_release m mine x hi hl
    unfold step destroy
    simp only [h1, Option.map_some]
    exact ⟨_, rfl, inv_null m1 mine x none h2 (fun h e => by rw [h3] at e; cases e) (by simp)⟩
  | userNew g =>
    refine ⟨_, rfl, ?_⟩
    have hnl : m.next ∉ m.live := fun h => Nat.lt_irrefl _ (hi.below _ h)
    exact { nodup := List.nodup_cons.mpr ⟨hnl, hi.nodup⟩, mineNodup := List.nodup_cons.mpr ⟨fun h => hnl (hi.mineLive _ h), hi.mineNodup⟩,
            below := by
              intro h hh
              show h < m.next + 1
              rcases List.mem_cons.mp hh with e | hh
              · omega
              · have := hi.below h hh; omega
            mineLive := by
              intro h hh
              rcases List.mem_cons.mp hh with e | hh
              · rw [e]; exact List.mem_cons_self
              · exact List.mem_cons_of_mem _ (hi.mineLive h hh)
            held := by
              intro x h e
              have := hi.held x h e
              refine ⟨List.mem_cons_of_mem _ this.1, fun hm => ?_⟩
              rcases List.mem_cons.mp hm with e' | hm
              · exact hnl (e' ▸ this.1)
              · exact this.2 hm
            unique := hi.unique
            owner := by
              intro h hh
              rcases List.mem_cons.mp hh with e | hh
              · exact Or.inl (by rw [e]; exact List.mem_cons_self)
              · exact (hi.owner h hh).imp (List.mem_cons_of_mem _) id
            freedNodup := hi.freedNodup
            freedDead := by
              intro h hh
              have := hi.freedDead h hh
              refine ⟨fun e => ?_, Nat.lt_succ_of_lt this.2⟩
              rcases List.mem_cons.mp e with e | e
              · omega
              · exact this.1 e
            createdNodup := hi.createdNodup
            created := by
              intro h hh
              obtain ⟨h1, h2, h3⟩ := hi.created h hh
              refine ⟨Nat.lt_succ_of_lt h1, fun e => ?_, h3.imp (List.mem_cons_of_mem _) id⟩
              rcases List.mem_cons.mp e with e | e
              · omega
              · exact h2 e }
  | userFree h =>
    have hh : h ∈ mine := hl
    have hlive := hi.mineLive h hh
    unfold step
    simp only
    rw [if_pos hlive]
    refine ⟨_, rfl, ?_⟩
    have hmem : ∀ g, g ∈ m.live.erase h ↔ g ≠ h ∧ g ∈ m.live := fun g => hi.nodup.mem_erase_iff
    have hmem' : ∀ g, g ∈ mine.erase h ↔ g ≠ h ∧ g ∈ mine := fun g => hi.mineNodup.mem_erase_iff
    exact { nodup := hi.nodup.erase _, mineNodup := hi.mineNodup.erase _, below := fun g hg => hi.below g ((hmem g).mp hg).2,
            mineLive := fun g hg => (hmem g).mpr ⟨((hmem' g).mp hg).1, hi.mineLive g ((hmem' g).mp hg).2⟩,
            held := by
              intro x g e
              have := hi.held x g e
              exact ⟨(hmem g).mpr ⟨fun e' => this.2 (e' ▸ hh), this.1⟩, fun h' => this.2 ((hmem' g).mp h').2⟩
            unique := hi.unique
            owner := by
              intro g hg
              obtain ⟨g1, g2⟩ := (hmem g).mp hg
              exact (hi.owner g g2).imp (fun h' => (hmem' g).mpr ⟨g1, h'⟩) id
            freedNodup := hi.freedNodup
            freedDead := fun g hg => ⟨fun e => (hi.freedDead g hg).1 ((hmem g).mp e).2, (hi.freedDead g hg).2⟩
            createdNodup := hi.createdNodup
            created := by
              intro g hg
              obtain ⟨h1, h2, h3⟩ := hi.created g hg
              exact ⟨h1, fun e => h2 ((hmem' g).mp e).2, h3.imp (fun h3 => (hmem g).mpr ⟨fun e => h2 (e ▸ hh), h3⟩) id⟩ }

theorem comm_inv (m : Mem) (mine : List Nat) (h : Exec m mine) : CommInv m mine := by
  induction h with
  | start =>
    exact { nodup := by decide, mineNodup := by decide, below := by decide, mineLive := by decide, held := fun x h e => (by cases e),
            unique := fun x y h e => (by cases e), owner := fun h hh => Or.inl hh, freedNodup := by decide, freedDead := by decide,
            createdNodup := by decide, created := by decide }
  | step m m' mine op _ hl hs ih =>
    obtain ⟨m1, h1, h2⟩ := comm_step m mine op ih hl
    rw [hs] at h1
    rw [Option.some.inj h1]
    exact h2

/-- **No errors.**  No operation of a legal program makes a wrong call of MPI (duplicating or freeing what does not exist). -/
theorem C104_no_error (m : Mem) (mine : List Nat) (h : Exec m mine) (op : Op) (hl : Legal m mine op) : step m op ≠ none := by
  obtain ⟨m', h1, _⟩ := comm_step m mine op (comm_inv m mine h) hl
  rw [h1]; simp

/-- **Ownership.**  At all times: what an object holds exists and is not the program's, no two objects hold the same communicator, the
program's communicators exist (objects free none of them), and every communicator that exists has its owner, the program or an object. -/
theorem C104_owned (m : Mem) (mine : List Nat) (h : Exec m mine) :
    (∀ x g, Spec.CommObject.Holds m x g → g ∈ m.live ∧ g ∉ mine) ∧ (∀ x y g, Spec.CommObject.Holds m x g → Spec.CommObject.Holds m y g → x = y) ∧
    (∀ g ∈ mine, g ∈ m.live) ∧ ∀ g ∈ m.live, g ∈ mine ∨ ∃ x, Spec.CommObject.Holds m x g :=
  have hi := comm_inv m mine h
  ⟨hi.held, hi.unique, hi.mineLive, hi.owner⟩

/-- **Freed once.**  Objects free no communicator twice; and when there are no objects, every communicator that objects have made has
been freed exactly once, and only the program's are left. -/
theorem C104_freed (m : Mem) (mine : List Nat) (h : Exec m mine) :
    (∀ g, m.freed.count g ≤ 1) ∧
    ((∀ x, m.obj x = none) → (∀ g ∈ m.created, m.freed.count g = 1) ∧ ∀ g, g ∈ m.live ↔ g ∈ mine) := by
  have hi := comm_inv m mine h
  refine ⟨fun g => List.nodup_iff_count_le_one.mp hi.freedNodup g, fun hn => ⟨fun g hg => ?_, fun g => ⟨fun hg => ?_, hi.mineLive g⟩⟩⟩
  · obtain ⟨_, h2, h3⟩ := hi.created g hg
    have hf : g ∈ m.freed := by
      rcases h3 with h3 | h3
      · rcases hi.owner g h3 with h4 | ⟨x, h4⟩
        · exact absurd h4 h2
        · rw [hn x] at h4; cases h4
      · exact h3
    exact List.count_eq_one_of_mem hi.freedNodup hf
  · rcases hi.owner g hg with h4 | ⟨x, h4⟩
    · exact h4
    · rw [hn x] at h4; cases h4

/-- **What objects hold.**  A constructed or copied object holds a new communicator of the same group as the one given; moving hands the
same communicator on; assigning another object frees the old communicator first. -/
theorem C104_holds (m : Mem) (mine : List Nat) (h : Exec m mine) :
    (∀ x g m', Legal m mine (.construct x (some g) true) → step m (.construct x (some g) true) = some m' →
      ∃ n, Spec.CommObject.Holds m' x n ∧ n ∉ m.live ∧ m'.grp n = m.grp g) ∧
    (∀ x g m', Legal m mine (.construct x (some g) false) → step m (.construct x (some g) false) = some m' → Spec.CommObject.Holds m' x g) ∧
    (∀ x y g m', Legal m mine (.copy x y) → Spec.CommObject.Holds m y g → step m (.copy x y) = some m' →
      ∃ n, Spec.CommObject.Holds m' x n ∧ Spec.CommObject.Holds m' y g ∧ n ∉ m.live ∧ m'.grp n = m.grp g) ∧
    (∀ x y c m', Legal m mine (.move x y) → m.obj y = some c → step m (.move x y) = some m' → m'.obj x = some c ∧ m'.obj y = some none) ∧
    (∀ x y c m', Legal m mine (.assign x y) → x ≠ y → m.obj y = some c → step m (.assign x y) = some m' →
      m'.obj x = some c ∧ m'.obj y = some none ∧ ∀ g, Spec.CommObject.Holds m x g → g ∈ m'.freed ∧ g ∉ m'.live) := by
  have hi := comm_inv m mine h
  have hnl : m.next ∉ m.live := fun h => Nat.lt_irrefl _ (hi.below _ h)
  refine ⟨?_, ?_, ?_, ?_, ?_⟩
  · intro x g m' hl hs
    obtain ⟨m1, h1, _, h3, _, h5, _⟩ := dup_ok m mine x g hi hl.1 (by simpa using hl.2 g rfl)
    have : m1 = m' := Option.some.inj (h1.symm.trans hs)
    subst this
    exact ⟨m.next, h3, hnl, h5⟩
  · intro x g m' hl hs
    have : m.set x (some (some g)) = m' := Option.some.inj hs
    subst this
    show (m.set x (some (some g))).obj x = _
    rw [obj_set, if_pos rfl]
  · intro x y g m' hl hy hs
    have hyg : m.obj y = some (some g) := hy
    obtain ⟨m1, h1, _, h3, h4, h5, _⟩ := dup_ok m mine x g hi hl.1 (hi.held y g hy).1
    have hs' : construct m x (some g) true = some m' := by
      have : copy m x y = some m' := hs
      unfold copy at this
      rw [hyg, Option.bind_some] at this
      exact this
    have : m1 = m' := Option.some.inj (h1.symm.trans hs')
    subst this
    have hne : y ≠ x := fun e => by rw [e, hl.1] at hyg; cases hyg
    exact ⟨m.next, h3, (h4 y hne).trans hyg, hnl, h5⟩
  · intro x y c m' hl hy hs
    have hne : x ≠ y := fun e => by rw [← e, hl.1] at hy; cases hy
    have : move m x y = some m' := hs
    unfold move at this
    rw [hy, Option.map_some] at this
    have := Option.some.inj this
    subst this
    exact ⟨by rw [obj_set, if_neg hne, obj_set, if_pos rfl], by rw [obj_set, if_pos rfl]⟩
  · intro x y c m' hl hne hy hs
    obtain ⟨m1, h1, h2, h3, h4, _, h6⟩ := inv_release m mine x hi hl.1
    have : assign m x y = some m' := hs
    unfold assign at this
    rw [h1, Option.bind_some, h4 y hne.symm, hy, Option.map_some] at this
    have := Option.some.inj this
    subst this
    refine ⟨by rw [obj_set, if_neg hne, obj_set, if_pos rfl], by rw [obj_set, if_pos rfl], fun g hg => ?_⟩
    have := h6 g hg
    exact ⟨this, (h2.freedDead g this).1⟩

/-- Moving an object to itself leaves it without communicator (which is freed). -/
theorem C104_self (m : Mem) (mine : List Nat) (h : Exec m mine) (x g : Nat) (hx : Spec.CommObject.Holds m x g) :
    ∃ m', step m (.assign x x) = some m' ∧ m'.obj x = some none ∧ g ∈ m'.freed := by
  have hi := comm_inv m mine h
  have hxg : m.obj x = some (some g) := hx
  obtain ⟨m1, h1, h2, h3, h4, _, h6⟩ := inv_release m mine x hi (by rw [hxg]; simp)
  refine ⟨(m1.set x (some none)).set x (some none), ?_, by rw [obj_set, if_pos rfl], h6 g hx⟩
  unfold step assign
  simp only [h1, Option.bind_some, h3, Option.map_some]

section examples
/-- Object 5 duplicates `MPI_COMM_WORLD`, object 6 is a copy of it, object 7 gets a communicator handed over and then takes that of
object 6; all are destroyed. -/
example : ∃ m, Exec m [0] ∧ m.created = [1, 2] ∧ m.freed = [3, 1, 2] ∧ m.live = [0] := by
  have e0 := Exec.start
  have e1 := Exec.step _ _ _ (.construct 5 (some 0) true) e0 ⟨rfl, by intro h e; cases e; decide⟩ rfl
  have e2 := Exec.step _ _ _ (.copy 6 5) e1 ⟨rfl, by decide⟩ rfl
  have e3 := Exec.step _ _ _ (.userNew 4) e2 trivial rfl
  have e4 := Exec.step _ _ _ (.construct 7 (some 3) false) e3 ⟨rfl, by intro h e; cases e; decide⟩ rfl
  have e5 := Exec.step _ _ _ (.assign 7 6) e4 ⟨by decide, by decide⟩ rfl
  have e6 := Exec.step _ _ _ (.destroy 5) e5 (by show _ ≠ _; decide) rfl
  have e7 := Exec.step _ _ _ (.destroy 6) e6 (by show _ ≠ _; decide) rfl
  have e8 := Exec.step _ _ _ (.destroy 7) e7 (by show _ ≠ _; decide) rfl
  exact ⟨_, e8, rfl, rfl, rfl⟩
end examples
end Verif.Props
