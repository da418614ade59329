import Verif.Mt.Safe
/-!
# C48 and C49: the file of a tape without the ring; the units the control does not have
-/
namespace Verif.Mt
open Verif.Bus
open Verif.Card (Res)
open Verif.Tape (Tape St Fmt)

namespace Spec

/-- A drive as the configuration file defines it: empty, or with a file mounted. -/
def Fresh (d : Drive) : Prop := ∃ t9, d = newDrive t9 ∨ ∃ file f ring den, d = mount (newDrive t9) file f ring den

/-- The six places for drives after configuration. -/
def Config (drives : List (Option Drive)) : Prop := drives.length = 6 ∧ ∀ (u : Nat) (d : Drive), drives[u]? = some (some d) → Fresh d

/-- The operator does not put another tape on drive `u`, nor the same one with the ring. -/
def Leaves (u : Nat) (file : List Nat) (os : List Op) : Prop :=
  ∀ same file' f ring den, .key u (.load same file' f ring den) ∈ os → file' = file ∧ ring = false

/-- The channel addresses only units 0 to 5 of the control, and the operator only touches those. -/
def InRange (addr : Nat) (os : List Op) : Prop :=
  (∀ t bo bi, .poll t bo bi ∈ os → t.adr = true → bo &&& 0xf8 = addr &&& 0xf8 → bo % 8 < 6) ∧ ∀ u k, .key u k ∈ os → u < 6

end Spec

theorem newDrive_inv (t9 : Bool) : Tape.Inv none (newDrive t9).t.b :=
  ⟨List.length_replicate, by intro h; exact absurd h (by show ¬ (false = true); decide), by simp⟩

theorem fresh_inv {d : Drive} (h : Spec.Fresh d) : Tape.Inv none d.t.b := by
  obtain ⟨t9, rfl | ⟨file, f, ring, den, rfl⟩⟩ := h
  · exact newDrive_inv t9
  · exact weak (Tape.attach_good (newDrive_inv t9) file f ring den).1

theorem run_gd {F : Prop} {a : Nat} {pr : Nat → Option (List Nat)} (os : List Op) : ∀ {s : S}, Inv F a pr s →
    (F ∨ Spec.InRange a os) → (∀ u g, pr u = some g → Spec.Leaves u g os) → Gd F (run s os) (Inv F a pr) := by
  induction os with
  | nil => intro s h _ _; exact h
  | cons o os ih =>
    intro s h hr hl
    have hs : Gd F (step s o) (Inv F a pr) := by
      cases o with
      | poll t bo bi => exact (dev_gd h t bo bi (hr.imp id fun q => q.1 t bo bi List.mem_cons_self)).bind fun r hr => hr
      | event i fuel junk => exact fire_gd h fuel junk i
      | key u k =>
        refine key_gd h u k (hr.imp id fun q => q.2 u k List.mem_cons_self) ?_
        rintro same file f ring den g rfl hg
        exact hl u g hg same file f ring den List.mem_cons_self
    refine hs.bind fun s1 h1 => ih h1 (hr.imp id fun q => ?_) fun u g hg same file f ring den hm => hl u g hg same file f ring den (List.mem_cons_of_mem _ hm)
    exact ⟨fun t bo bi hm => q.1 t bo bi (List.mem_cons_of_mem _ hm), fun u k hm => q.2 u k (List.mem_cons_of_mem _ hm)⟩

theorem create_inv {F : Prop} {addr : Nat} {drives : List (Option Drive)} (pr : Nat → Option (List Nat)) (hc : drives.length = 6)
    (ht : ∀ u d, drives[u]? = some (some d) → Tape.Inv (pr u) d.t.b) (hi : ∀ u, u < 6 → (F ∧ pr u = none) ∨ ∃ d, drives[u]? = some (some d)) :
    Inv F addr pr (create addr drives) :=
  ⟨hc, ht, hi, .inr (by intro e he; cases he), .inr (by show 0 < 6; decide), by show 0 < 6; decide, by show 0 < 256; decide, by show 0 < 256; decide, by show 0 < 256; decide, rfl⟩

/-- C48: a tape mounted without the write ring is never written: whatever the channel does on the interface, in whatever
order events become due and whatever keys are pressed, the file is as it was. -/
theorem C48_no_ring_no_write (addr : Nat) (drives : List (Option Drive)) (hc : Spec.Config drives) (u : Nat) (t9 : Bool) (file : List Nat) (f : Fmt) (den : Bool)
    (hu : drives[u]? = some (some (mount (newDrive t9) file f false den))) (os : List Op) (ho : Spec.Leaves u file os) (s : S)
    (h : run (create addr drives) os = .ok s) : ∃ d, s.drives[u]? = some (some d) ∧ d.t.b.file = file := by
  have hl : u < 6 := by
    have := (List.getElem?_eq_some_iff.1 hu).1
    rw [hc.1] at this; exact this
  have h0 : Inv True addr (fun v => if v = u then some file else none) (create addr drives) := by
    refine create_inv _ hc.1 ?_ ?_
    · intro v d hd
      by_cases q : v = u
      · subst q
        rw [hu] at hd
        simp only [Option.some.injEq] at hd
        subst hd
        rw [if_pos rfl]
        exact (Tape.attach_good (newDrive_inv t9) file f false den).1
      · rw [if_neg q]; exact fresh_inv (hc.2 v d hd)
    · intro v hv
      by_cases q : v = u
      · subst q; exact .inr ⟨_, hu⟩
      · exact .inl ⟨trivial, by simp [q]⟩
  have g := run_gd os h0 (.inl trivial) (by
    intro v g hg
    by_cases q : v = u
    · subst q
      simp only [↓reduceIte, Option.some.injEq] at hg
      subst hg; exact ho
    · simp [q] at hg)
  rw [h] at g
  rcases g.inst u hl with q | ⟨d, hd⟩
  · exact absurd q.2 (by simp)
  · exact ⟨d, hd, ((g.tapes u d hd).prot file (by simp)).2⟩

/-- C49: with all six drives present, and none above 5 addressed, no history makes the control leave its tables or follow
a null pointer. -/
theorem C49_in_range_partial (addr : Nat) (drives : List (Option Drive)) (hc : Spec.Config drives) (hall : ∀ u, u < 6 → ∃ d, drives[u]? = some (some d))
    (os : List Op) (ho : Spec.InRange addr os) : run (create addr drives) os ≠ .oob := by
  have h0 : Inv False addr (fun _ => none) (create addr drives) :=
    create_inv _ hc.1 (fun u d hd => fresh_inv (hc.2 u d hd)) (fun u hu => .inr (hall u hu))
  have g := run_gd os h0 (.inr ho) (by intro u g hg; cases hg)
  intro e
  rw [e] at g
  exact g

end Verif.Mt
