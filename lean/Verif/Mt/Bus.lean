import Verif.Mt.Sense
import Verif.Mt.Props
/-!
# The 2415 on the channel interface (C105)
-/
namespace Verif.Mt
open Verif.Bus
open Verif.Card (Res)

/-- The control has the interface, or answers busy, in every state but idle.  It has the eight addresses that agree with its
own but for the last three bits, and wants service when it says so, has stacked status, or a drive has become ready. -/
abbrev Disc (s : S) (t : Tags) (bo bi : Nat) (s' : S) (t' : Tags) (bi' : Nat) : Prop :=
  ∃ u, u < 8 ∧ Bus.Spec.Disciplined (s.st ≠ .idle) (s'.st ≠ .idle) ((s.addr &&& 0xf8) ||| u) (s.request = true ∨ s.stacked = true ∨ ∃ v, s.rdy v = true) t bo bi t' bi'

section
variable {s s' : S} {t t' : Tags} {bo bi bi' : Nat}

theorem addr_split (a b : Nat) (h : b &&& 0xf8 = a &&& 0xf8) : b % 256 = ((a &&& 0xf8) ||| (b % 8)) % 256 := by
  rw [← h]
  have key : ∀ x : Fin 256, x.val = ((x.val &&& 0xf8) ||| (x.val % 8)) % 256 := by decide +kernel
  have h1 : b &&& 0xf8 = b % 256 &&& 0xf8 := by
    rw [← Nat.and_two_pow_sub_one_eq_mod b 8, Nat.and_assoc]; rfl
  have h2 : b % 8 = b % 256 % 8 := by omega
  rw [h1, h2]
  exact key ⟨b % 256, Nat.mod_lt _ (by decide)⟩

theorem scan_facts (s : S) : (scan s).st = s.st ∧ (scan s).addr = s.addr ∧ (scan s).stacked = s.stacked ∧ (scan s).rdy = s.rdy ∧
    ((scan s).request = true → s.request = true ∨ ∃ v, s.rdy v = true) := by
  unfold scan
  split
  · rename_i h; exact ⟨rfl, rfl, rfl, rfl, fun _ => .inr ⟨_, h⟩⟩
  · exact ⟨rfl, rfl, rfl, rfl, fun h => .inl h⟩

theorem addressed_facts (s : S) (t : Tags) (bo : Nat) : (addressed s t bo).1.st ≠ .idle ∧ Bus.Spec.goodParity (addressed s t bo).2.2 ∧ (addressed s t bo).2.1.sel = false ∧
    Bus.Spec.outKept t (addressed s t bo).2.1 := by
  unfold addressed
  dsimp only
  generalize (if parBad bo = true then { s with se0 := s.se0 ||| eBusChk } else s) = p
  split <;> simp [bytePar_good, Bus.Spec.outKept]

theorem polled_facts (s : S) (t : Tags) (bi : Nat) : (polled s t bi).1.st ≠ .idle ∧ ((polled s t bi).2.2 = bi ∨ Bus.Spec.goodParity (polled s t bi).2.2) ∧ (polled s t bi).2.1.sel = false ∧
    Bus.Spec.outKept t (polled s t bi).2.1 := by
  unfold polled
  split <;> simp [bytePar_good, Bus.Spec.outKept]

theorem idle_disc (hs : s.st = .idle) (h : idle s t bo bi = (s', t', bi')) : Disc s t bo bi s' t' bi' := by
  refine ⟨bo % 8, Nat.mod_lt _ (by decide), ?_⟩
  obtain ⟨f1, f2, f3, f4, f5⟩ := scan_facts s
  have hst : (scan s).st = .idle := by rw [f1, hs]
  have still : ∀ (p : S) (q : Tags), p.st = .idle → Bus.Spec.outKept t q → Bus.Spec.inKept t q → q.sel = t.sel →
      Bus.Spec.Disciplined (s.st ≠ .idle) (p.st ≠ .idle) ((s.addr &&& 0xf8) ||| (bo % 8)) (s.request = true ∨ s.stacked = true ∨ ∃ v, s.rdy v = true) t bo bi q bi := by
    intro p q hp ho hi hq
    refine ⟨ho, .inl rfl, ?_, fun _ h => absurd hp h, fun _ _ _ => ⟨hi, rfl, hq⟩⟩
    intro hr
    obtain ⟨i1, i2, i3, i4⟩ := hi
    exfalso
    simp [Bus.Spec.raises, i1, i2, i3, i4] at hr
  unfold idle at h
  split at h
  · simp only [Prod.mk.injEq] at h
    obtain ⟨rfl, rfl, rfl⟩ := h
    exact still _ _ hs (by simp [Bus.Spec.outKept]) (by simp [Bus.Spec.inKept]) rfl
  · dsimp only at h
    split at h
    · simp only [Prod.mk.injEq] at h
      obtain ⟨rfl, rfl, rfl⟩ := h
      refine still _ _ hst ?_ ?_ ?_ <;> split <;> simp [Bus.Spec.outKept, Bus.Spec.inKept]
    · rename_i ho
      generalize hq : (if ((scan s).request || (scan s).stacked) = true then { t with reqIn := !(t.sup || t.adr) } else t) = q at h
      have k1 : Bus.Spec.outKept t q := by rw [← hq]; split <;> simp [Bus.Spec.outKept]
      have k2 : Bus.Spec.inKept t q := by rw [← hq]; split <;> simp [Bus.Spec.inKept]
      have k3 : q.sel = t.sel := by rw [← hq]; split <;> rfl
      have ktr : ∀ r, Bus.Spec.outKept q r → Bus.Spec.outKept t r := by
        rintro r ⟨a1, a2, a3, a4, a5, a6, a7⟩
        obtain ⟨b1, b2, b3, b4, b5, b6, b7⟩ := k1
        exact ⟨a1.trans b1, a2.trans b2, a3.trans b3, a4.trans b4, a5.trans b5, a6.trans b6, fun h => b7 (a7 h)⟩
      unfold idleSel at h
      split at h
      · simp only [Prod.mk.injEq] at h
        obtain ⟨rfl, rfl, rfl⟩ := h
        exact still _ _ hst k1 k2 k3
      · rename_i hsel
        split at h
        · rename_i hadr
          split at h
          · rename_i hm
            obtain ⟨g1, g2, g3, g4⟩ := addressed_facts (scan s) q bo
            rw [h] at g1 g2 g3 g4
            refine ⟨ktr _ g4, .inr g2, fun _ => g1, fun _ _ => ⟨by simpa using ho, by rw [← k3]; simpa using hsel, g3, .inl ⟨by rw [← k1.1]; exact hadr, ?_⟩⟩, fun _ q => absurd g1 q⟩
            rw [f2] at hm
            exact addr_split s.addr bo hm
          · simp only [Prod.mk.injEq] at h
            obtain ⟨rfl, rfl, rfl⟩ := h
            exact still _ _ hst k1 k2 k3
        · rename_i hadr
          split at h
          · rename_i hm
            obtain ⟨g1, g2, g3, g4⟩ := polled_facts (scan s) q bi
            rw [h] at g1 g2 g3 g4
            refine ⟨ktr _ g4, g2, fun _ => g1, fun _ _ => ⟨by simpa using ho, by rw [← k3]; simpa using hsel, g3, .inr ⟨by rw [← k1.1]; simpa using hadr, by rw [← k1.2.2.2.1]; exact hm.1, ?_⟩⟩, fun _ q => absurd g1 q⟩
            have := hm.2
            rw [f3] at this
            simp only [Bool.or_eq_true] at this
            rcases this with e | e
            · rcases f5 e with a | a
              · exact .inl a
              · exact .inr (.inr a)
            · exact .inr (.inl e)
          · simp only [Prod.mk.injEq] at h
            obtain ⟨rfl, rfl, rfl⟩ := h
            exact still _ _ hst k1 k2 k3

/-- Disciplined for a call in a state other than idle. -/
theorem disc_of (hs : s.st ≠ .idle) (h1 : Bus.Spec.outKept t t') (h2 : bi' = bi ∨ Bus.Spec.goodParity bi') (h3 : Bus.Spec.raises t t' → s'.st ≠ .idle) :
    Disc s t bo bi s' t' bi' := ⟨0, by decide, h1, h2, h3, fun h => absurd hs h, fun h => absurd hs h⟩

/-- A byte from `withPar` has good parity. -/
theorem withPar_good {v b : Nat} (h : withPar v = .ok b) : Bus.Spec.goodParity b ∧ b = Bus.Spec.byte v ∧ v < 256 := by
  by_cases hv : v < 256
  · rw [withPar_ok v hv] at h
    cases h
    exact ⟨byte_good v hv, rfl, hv⟩
  · rw [withPar_oob v (by omega)] at h
    cases h

theorem initSel_disc (hs : s.st = .initSel) (h : initSel s t = (s', t', bi')) : Disc s t bo bi s' t' bi' := by
  unfold initSel at h
  have hb2 := bytePar_good (s.addr &&& 0xf8 ||| s.curUnit)
  split at h
  all_goals
    simp only [Prod.mk.injEq] at h
    obtain ⟨h1, h2, h3⟩ := h
    subst h1 h2 h3
    apply disc_of <;> simp_all [Bus.Spec.outKept, Bus.Spec.raises]

theorem command1_tags {q : Tags} (h : command1 s q bo bi = .ok (s', t', bi')) : t' = q ∧ bi' = bi := by
  unfold command1 at h
  repeat' split at h
  all_goals
    first
    | (simp only [Res.ok.injEq, Prod.mk.injEq] at h
       exact ⟨h.2.1.symm, h.2.2.symm⟩)
    | (obtain ⟨a, -, h⟩ := bind_ok' h
       simp only [Res.ok.injEq, Prod.mk.injEq] at h
       exact ⟨h.2.1.symm, h.2.2.symm⟩)

theorem command_disc (hs : s.st = .command) (h : command s t bo = .ok (s', t', bi')) : Disc s t bo bi s' t' bi' := by
  have key : Bus.Spec.outKept t t' ∧ bi' = bytePar s.addr ∧ ¬ Bus.Spec.raises t t' := by
    unfold command at h
    split at h
    · obtain ⟨rfl, rfl⟩ := command1_tags h
      refine ⟨?_, rfl, ?_⟩ <;> simp_all [Bus.Spec.outKept, Bus.Spec.raises]
    · split at h
      all_goals
        simp only [Res.ok.injEq, Prod.mk.injEq] at h
        obtain ⟨-, h2, h3⟩ := h
        subst h2 h3
        refine ⟨?_, rfl, ?_⟩ <;> simp_all [Bus.Spec.outKept, Bus.Spec.raises]
  obtain ⟨k1, k2, k3⟩ := key
  exact disc_of (by rw [hs]; decide) k1 (.inr (by rw [k2]; exact bytePar_good _)) (fun h => absurd h k3)

theorem status_disc (hs : s.st = .status) (h : status s t = .ok (s', t', bi')) : Disc s t bo bi s' t' bi' := by
  unfold Mt.status at h
  obtain ⟨b, hw, h⟩ := bind_ok' h
  obtain ⟨hg, -⟩ := withPar_good hw
  simp only [Res.ok.injEq, Prod.mk.injEq] at h
  obtain ⟨h1, h2, h3⟩ := h
  subst h1 h2 h3
  apply disc_of <;> simp_all [Bus.Spec.outKept, Bus.Spec.raises]

theorem statusAccept_disc (hs : s.st = .statusAccept) (h : statusAccept s t = .ok (s', t', bi')) : Disc s t bo bi s' t' bi' := by
  unfold statusAccept accepted at h
  obtain ⟨b, hw, h⟩ := bind_ok' h
  obtain ⟨hg, -⟩ := withPar_good hw
  repeat' split at h
  all_goals
    simp only [Res.ok.injEq, Prod.mk.injEq] at h
    obtain ⟨h1, h2, h3⟩ := h
    subst h1 h2 h3
    apply disc_of <;> simp_all [Bus.Spec.outKept, Bus.Spec.raises]

theorem statusWait_disc (hs : s.st = .statusWait) (h : statusWait s t bi = (s', t', bi')) : Disc s t bo bi s' t' bi' := by
  unfold statusWait at h
  repeat' split at h
  all_goals
    simp only [Prod.mk.injEq] at h
    obtain ⟨h1, h2, h3⟩ := h
    subst h1 h2 h3
    apply disc_of <;> simp_all [Bus.Spec.outKept, Bus.Spec.raises]

theorem busy_disc (hs : s.st = .busy) (h : busy s t = (s', t', bi')) : Disc s t bo bi s' t' bi' := by
  have hb1 := bytePar_good (sBusy ||| sSms)
  unfold busy at h
  repeat' split at h
  all_goals
    simp only [Prod.mk.injEq] at h
    obtain ⟨h1, h2, h3⟩ := h
    subst h1 h2 h3
    apply disc_of <;> simp_all [Bus.Spec.outKept, Bus.Spec.raises]

theorem endStatus_disc (hs : s.st = .endStatus) (h : endStatus s t bi = .ok (s', t', bi')) : Disc s t bo bi s' t' bi' := by
  unfold endStatus at h
  split at h
  · simp only [Res.ok.injEq, Prod.mk.injEq] at h
    obtain ⟨h1, h2, h3⟩ := h
    subst h1 h2 h3
    apply disc_of <;> simp_all [Bus.Spec.outKept, Bus.Spec.raises]
  · obtain ⟨b, hw, h⟩ := bind_ok' h
    obtain ⟨hg, -⟩ := withPar_good hw
    simp only [Res.ok.injEq, Prod.mk.injEq] at h
    obtain ⟨h1, h2, h3⟩ := h
    subst h1 h2 h3
    apply disc_of <;> simp_all [Bus.Spec.outKept, Bus.Spec.raises]

theorem endAccept_disc (hs : s.st = .endAccept) (h : endAccept s t = .ok (s', t', bi')) : Disc s t bo bi s' t' bi' := by
  unfold endAccept ended at h
  obtain ⟨b, hw, h⟩ := bind_ok' h
  obtain ⟨hg, -⟩ := withPar_good hw
  repeat' split at h
  all_goals
    simp only [Res.ok.injEq, Prod.mk.injEq] at h
    obtain ⟨h1, h2, h3⟩ := h
    subst h1 h2 h3
    apply disc_of <;> simp_all [Bus.Spec.outKept, Bus.Spec.raises]

theorem waitDevend_disc (hs : s.st = .waitDevend) (h : waitDevend s t bi = (s', t', bi')) : Disc s t bo bi s' t' bi' := by
  unfold waitDevend at h
  simp only [Prod.mk.injEq] at h
  obtain ⟨h1, h2, h3⟩ := h
  subst h1 h2 h3
  apply disc_of <;> simp_all [Bus.Spec.outKept, Bus.Spec.raises]

theorem opr_disc (hs : s.st = .opr) (h : opr s t bi = (s', t', bi')) : Disc s t bo bi s' t' bi' := by
  unfold opr at h
  repeat' split at h
  all_goals
    simp only [Prod.mk.injEq] at h
    obtain ⟨h1, h2, h3⟩ := h
    subst h1 h2 h3
    apply disc_of <;> simp_all [Bus.Spec.outKept, Bus.Spec.raises]

theorem data1_disc (hs : s.st = .data1) (h : data1 s t bi = .ok (s', t', bi')) : Disc s t bo bi s' t' bi' := by
  unfold data1 at h
  split at h
  · simp only [Res.ok.injEq, Prod.mk.injEq] at h
    obtain ⟨h1, h2, h3⟩ := h
    subst h1 h2 h3
    apply disc_of <;> simp_all [Bus.Spec.outKept, Bus.Spec.raises]
  · obtain ⟨b, hw, h⟩ := bind_ok' h
    obtain ⟨hg, -⟩ := withPar_good hw
    simp only [Res.ok.injEq, Prod.mk.injEq] at h
    obtain ⟨h1, h2, h3⟩ := h
    subst h1 h2 h3
    apply disc_of <;> simp_all [Bus.Spec.outKept, Bus.Spec.raises]

theorem data2_disc (hs : s.st = .data2) (h : data2 s t bo = .ok (s', t', bi')) : Disc s t bo bi s' t' bi' := by
  unfold data2 at h
  obtain ⟨b, hw, h⟩ := bind_ok' h
  obtain ⟨hg, -⟩ := withPar_good hw
  split at h
  all_goals
    simp only [Res.ok.injEq, Prod.mk.injEq] at h
    obtain ⟨-, h2, h3⟩ := h
    subst h2 h3
    refine disc_of (by rw [hs]; decide) ?_ (.inr hg) ?_ <;> simp_all [Bus.Spec.outKept, Bus.Spec.raises]

/-- **C105**: whatever the state of the control, the tags and the bus, a call of the bus function that stays inside its
tables obeys the interface rules. -/
theorem C105_disciplined (h : dev s t bo bi = .ok (s', t', bi')) : Disc s t bo bi s' t' bi' := by
  unfold dev at h
  split at h
  · rename_i hr
    unfold reset at h
    simp only [Res.ok.injEq, Prod.mk.injEq] at h
    obtain ⟨h1, h2, h3⟩ := h
    subst h1 h2 h3
    refine ⟨0, by decide, ?_⟩
    constructor
    · split <;> simp [Bus.Spec.outKept]
    · exact Or.inl rfl
    · intro hq; exfalso; revert hq; split <;> simp [Bus.Spec.raises]
    · intro _ hq; exact absurd rfl hq
    · intro _ _ hq; simp_all
  · cases hs : s.st <;> rw [hs] at h <;> simp only [Res.ok.injEq] at h
    · exact idle_disc hs h
    · exact busy_disc hs h
    · exact initSel_disc hs h
    · exact command_disc hs h
    · exact status_disc hs h
    · exact statusAccept_disc hs h
    · exact statusWait_disc hs h
    · exact endStatus_disc hs h
    · exact endAccept_disc hs h
    · exact waitDevend_disc hs h
    · exact opr_disc hs h
    · exact data1_disc hs h
    · exact data2_disc hs h

end

/-- **C105**, with the conclusion of C49: with all drives there and no address above 5, every call in every history obeys the
interface rules. -/
theorem C105_history (addr : Nat) (drives : List (Option Drive)) (hc : Spec.Config drives) (hall : ∀ u, u < 6 → ∃ d, drives[u]? = some (some d))
    (os : List Op) (t : Tags) (bo bi : Nat) (ho : Spec.InRange addr (os ++ [.poll t bo bi])) (s : S) (h : run (create addr drives) os = .ok s) :
    (∃ s' t' bi', dev s t bo bi = .ok (s', t', bi') ∧ Disc s t bo bi s' t' bi') ∨ dev s t bo bi = .fuel := by
  have hn := C49_in_range_partial addr drives hc hall _ ho
  have happ : ∀ (os : List Op) (s0 s : S), run s0 os = .ok s → run s0 (os ++ [.poll t bo bi]) = (dev s t bo bi).bind fun r => .ok r.1 := by
    intro os
    induction os with
    | nil =>
      intro s0 s h
      cases h
      show ((dev s0 t bo bi).bind fun r => .ok r.1).bind _ = _
      cases dev s0 t bo bi <;> rfl
    | cons o os ih =>
      intro s0 s h
      obtain ⟨a, e1, e2⟩ := bind_ok' h
      show (step s0 o).bind _ = _
      rw [e1]
      exact ih a s e2
  rw [happ os _ s h] at hn
  cases e : dev s t bo bi with
  | ok r => exact .inl ⟨r.1, r.2.1, r.2.2, rfl, C105_disciplined e⟩
  | oob => rw [e] at hn; exact absurd rfl hn
  | fuel => exact .inr rfl

/-! ### The address on bus in -/

/-- **C105**, violated: the control shows the address of the unit only in the call that raises address in.  If it is called
once more before the channel takes the address, it shows its own. -/
theorem C105_violated_address (s : S) (h : AtRest s) (u : Nat) (hu : u < 8) (hold : Bool) (n bi : Nat) :
    ∃ s', (((Bus.Spec.poll dev ⟨s, Bus.Spec.rest, bi⟩ (fun t => { t with adr := true, sel := true, hld := hold }) (Bus.Spec.byte ((s.addr &&& 0xf8) ||| u))).bind fun L =>
        Bus.Spec.poll dev L (fun t => { t with adr := false }) (Bus.Spec.byte ((s.addr &&& 0xf8) ||| u))).bind (Spec.idles (n + 1))) =
      .ok ⟨s', { opr := true, hld := hold, oprIn := true, adrIn := true }, Bus.Spec.byte s.addr⟩ := by
  obtain ⟨a1, a2, a3⟩ := unit_addr s.addr u h.addr hu
  unfold Bus.Spec.rest
  have e1 : dev s { opr := true, adr := true, sel := true, hld := hold } (Bus.Spec.byte ((s.addr &&& 0xf8) ||| u)) bi =
      .ok ({ s with tScan := scanNext s.tScan, curUnit := u, selected := true, st := .initSel }, { opr := true, adr := true, hld := hold, oprIn := true }, bytePar ((s.addr &&& 0xf8) ||| u)) := by
    unfold dev
    rw [if_neg (by simp)]
    simp only [h.st, idle, scan_quiet (h.rdy _)]
    simp [h.request, h.stacked, idleSel, a1, addressed, a2, a3, h.busyFlag, anyRdy, h.rdy]
  rw [poll_ok (by exact e1), bk]
  have e2 : dev { s with tScan := scanNext s.tScan, curUnit := u, selected := true, st := .initSel } { opr := true, hld := hold, oprIn := true } (Bus.Spec.byte ((s.addr &&& 0xf8) ||| u)) (bytePar ((s.addr &&& 0xf8) ||| u)) =
      .ok ({ s with tScan := scanNext s.tScan, curUnit := u, selected := true, st := .command }, { opr := true, hld := hold, oprIn := true, adrIn := true }, bytePar ((s.addr &&& 0xf8) ||| u)) := by
    unfold dev
    rw [if_neg (by simp)]
    simp [initSel]
  rw [poll_ok (by exact e2), bk]
  have e3 : ∀ b, dev { s with tScan := scanNext s.tScan, curUnit := u, selected := true, st := .command, request := false } { opr := true, hld := hold, oprIn := true, adrIn := true } 0 b =
      .ok ({ s with tScan := scanNext s.tScan, curUnit := u, selected := true, st := .command, request := false }, { opr := true, hld := hold, oprIn := true, adrIn := true }, Bus.Spec.byte s.addr) := by
    intro b
    unfold dev
    rw [if_neg (by simp)]
    simp [command, bytePar_eq, Nat.mod_eq_of_lt h.addr]
  have hrq : ({ s with tScan := scanNext s.tScan, curUnit := u, selected := true, st := .command } : S) = { s with tScan := scanNext s.tScan, curUnit := u, selected := true, st := .command, request := false } := by
    rw [← h.request]
  rw [hrq]
  exact ⟨_, by rw [idles_step (e3 _), idles_fix (e3 _)]⟩

/-! ### A selection the control cannot take -/

/-- **C105**: when the control is working, or a drive other than the addressed one has ended an operation, a selection of any
of its units is answered by status in alone, with busy and status modifier on the bus: operational in and address in stay
down, and the channel drops the status by dropping select. -/
theorem C105_busy (s : S) (hs : s.st = .idle) (ha : s.addr < 256) (u : Nat) (hu : u < 8)
    (hb : s.busyFlag = true ∨ (s.rdy u = false ∧ ∃ v, v < 8 ∧ s.rdy v = true)) (hold sup : Bool) (bi : Nat) :
    ∃ s', dev s { opr := true, adr := true, sel := true, hld := hold, sup := sup } (Bus.Spec.byte ((s.addr &&& 0xf8) ||| u)) bi =
        .ok (s', { opr := true, adr := true, hld := hold, sup := sup, staIn := true }, Bus.Spec.byte 0x50) ∧
      ∃ s'', dev s' { opr := true, hld := hold, sup := sup, staIn := true } 0 (Bus.Spec.byte 0x50) =
        .ok (s'', { opr := true, hld := hold, sup := sup }, Bus.Spec.byte 0x50) ∧ s''.st = .idle := by
  obtain ⟨a1, a2, a3⟩ := unit_addr s.addr u ha hu
  obtain ⟨f1, f2, f3, f4, f5⟩ := scan_facts s
  have k1 : (scan s).busyFlag = s.busyFlag := by unfold scan; split <;> rfl
  have k2 : (scan s).rdy = s.rdy := by unfold scan; split <;> rfl
  have k3 : (scan s).addr = s.addr := by unfold scan; split <;> rfl
  have hbz : ((scan s).busyFlag || (anyRdy (scan s) && !(scan s).rdy u)) = true := by
    rw [k1, k2]
    rcases hb with h | ⟨h, v, hv, hr⟩
    · simp [h]
    · have : anyRdy (scan s) = true := by
        unfold anyRdy
        rw [List.any_eq_true]
        exact ⟨v, List.mem_range.2 hv, by rw [k2]; exact hr⟩
      simp [this, h]
  refine ⟨{ scan s with st := .busy }, ?_, ?_⟩
  · unfold dev
    rw [if_neg (by simp)]
    simp only [hs, idle]
    have hx : bytePar (sBusy ||| sSms) = Bus.Spec.byte 0x50 := by decide
    simp only [idleSel, k3, a1, addressed, a2, a3, hx]
    have hbz' : (scan s).busyFlag = true ∨ anyRdy (scan s) = true ∧ (scan s).rdy u = false := by simpa using hbz
    simp [hbz']
    exact k3
  · refine ⟨{ scan s with selected := false, st := .idle }, ?_, rfl⟩
    have hx : bytePar (sBusy ||| sSms) = Bus.Spec.byte 0x50 := by decide
    unfold dev
    rw [if_neg (by simp)]
    simp [busy, hx]

/-- A control that is reading on unit 1 meets the hypotheses. -/
example : ({ create 0x80 [] with busyFlag := true } : S).st = .idle ∧ ({ create 0x80 [] with busyFlag := true } : S).busyFlag = true := ⟨rfl, rfl⟩

end Verif.Mt
