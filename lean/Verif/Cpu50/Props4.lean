import Verif.Cpu50.Flow2
import Verif.Cpu50.Props3

/-!
# Model 2050: properties of every instruction

C133: the microprogram stays in control storage. C134: a problem program cannot change its
rights, start a channel or store into foreign blocks, whatever instructions it consists of. C135:
storage protection in every cycle of every run. They hold for all the instructions there are, also
those `Isa.lean` does not describe, because they are proved of the machine cycle.
-/

namespace Verif.Cpu50
open Verif.S360
attribute [local irreducible] ros

/-! ### One cycle -/

theorem mem_roar {e : Env} {w : Word} {s : S} {p : Held} (h : memCycle e w s = .ok p) :
    p.2.ROAR = s.ROAR ∨ p.1 = true ∧ p.2.ROAR = 0x1c0 := by
  have hacc : ∀ s1 : S, s1.ROAR = s.ROAR → p = accept e w s1 →
      p.2.ROAR = s.ROAR ∨ p.1 = true ∧ p.2.ROAR = 0x1c0 := by
    rintro s1 h1 rfl
    unfold accept
    split
    · split
      · exact .inr ⟨rfl, rfl⟩
      · exact .inl h1
    · exact .inl h1
  unfold memCycle at h
  split at h
  · cases h; exact .inl rfl
  · split at h
    · unfold fetch memRead at h
      split at h
      · cases h; exact .inl rfl
      · split at h
        · cases h; exact .inl rfl
        · cases h
    · cases h; exact .inl rfl
  · split at h
    · cases h; exact .inl rfl
    · split at h
      · unfold store memWrite at h
        split at h
        · cases h; exact .inl rfl
        · split at h
          · cases h; exact .inl rfl
          · cases h
      · cases h; exact .inl rfl
  · cases h1 : writeBack e s with
    | oob => rw [h1] at h; cases h
    | chan => rw [h1] at h; cases h
    | ok s1 => rw [h1] at h; cases h; exact hacc s1 (writeBack_eq h1).2.2.2.2.2.1 rfl
  · unfold memRead at h
    split at h
    · change (writeBack e _).bind _ = _ at h
      cases h1 : writeBack e { s with SDR := s.mem (memIx s.SA), ms := .w1 } with
      | oob => rw [h1] at h; cases h
      | chan => rw [h1] at h; cases h
      | ok s1 => rw [h1] at h; cases h; exact hacc s1 (writeBack_eq h1).2.2.2.2.2.1 rfl
    · cases h

/-- A cycle waits for storage or carries out the word. -/
theorem cycle_cases {e : Env} {t : Bool} {s s' : S} (hr : e.ros = ros)
    (h : cycle e t s = .ok s') : ∃ p, memCycle e (ros s.ROAR) (tickStep t s) = .ok p ∧
      ((p.1 = true ∧ s' = p.2) ∨
       (p.1 = false ∧ exec e (ros s.ROAR) (exc (tickStep t s)) p.2 = .ok s')) := by
  unfold cycle at h
  rw [hr] at h
  cases h1 : memCycle e (ros s.ROAR) (tickStep t s) with
  | oob => rw [h1] at h; cases h
  | chan => rw [h1] at h; cases h
  | ok p =>
    rw [h1] at h
    refine ⟨p, rfl, ?_⟩
    change (if p.1 then Out.ok p.2 else _) = _ at h
    split at h
    · rename_i h2; cases h; exact .inl ⟨h2, rfl⟩
    · rename_i h2; exact .inr ⟨by simpa using h2, h⟩

theorem exec_chan {e : Env} {w : Word} {ex : Bool} {s s' : S} (h : exec e w ex s = .ok s') :
    needsChan w = false := by
  unfold exec at h
  split at h
  · cases h
  · rename_i h1; simpa using h1

/-- The microprogram stays in reach. -/
theorem every_cycle {e : Env} {t : Bool} {s s' : S} (hr : e.ros = ros)
    (hs : every s.ROAR = true) (h : cycle e t s = .ok s') : every s'.ROAR = true := by
  have h1c0 : every 0x1c0 = true := by decide +kernel
  obtain ⟨p, h1, h2⟩ := cycle_cases hr h
  rcases h2 with ⟨-, rfl⟩ | ⟨h2, h3⟩
  · rcases mem_roar h1 with h3 | ⟨-, h3⟩
    · rw [h3]; exact hs
    · rw [h3]; exact h1c0
  · exact (((every_word hs).2 (exec_chan h3)).2 _ _ (exec_next h3)).1

theorem wordOk_iff {w : Word} (h : wordOk w = true) :
    (storeTr w = true → w.iv ≠ 4 ∧ w.iv ≠ 7 ∧ w.ss ≠ 31) ∧
    (w.tr = 8 → w.ce % 8 ≠ 0 ∧ w.ce % 8 ≠ 4) := by
  unfold wordOk at h
  rw [Bool.and_eq_true] at h
  obtain ⟨h1, h2⟩ := h
  constructor
  · intro h3
    rw [h3, Bool.not_true, Bool.false_or, Bool.and_eq_true, Bool.and_eq_true] at h1
    exact ⟨bne_iff_ne.1 h1.1.1, bne_iff_ne.1 h1.1.2, bne_iff_ne.1 h1.2⟩
  · intro h3
    rw [show (w.tr != 8) = false by rw [h3]; rfl, Bool.false_or, Bool.and_eq_true] at h2
    exact ⟨bne_iff_ne.1 h2.1, bne_iff_ne.1 h2.2⟩

/-- The invariant of storage protection is kept, and storage changes only where the key allows
it. -/
theorem guard_cycle {e : Env} {t : Bool} {s s' : S} (hr : e.ros = ros) (g : Guard s)
    (hs : every s.ROAR = true) (hm : ∀ i, 128 ≤ i → s.MP i = 0) (h : cycle e t s = .ok s') :
    Guard s' ∧ ∀ i, s'.mem i ≠ s.mem i → s.may i := by
  obtain ⟨p, h1, h2⟩ := cycle_cases hr h
  have g0 : Guard (tickStep t s) := ⟨g.same, g.free, g.clean, g.next⟩
  have m : Mid' (ros s.ROAR) (tickStep t s) p := guard_mem g0 h1
  rcases h2 with ⟨h2, rfl⟩ | ⟨h2, h3⟩
  · exact ⟨(m.held h2).1, m.chg⟩
  · have x := m.exe h2
    obtain ⟨w1, w2⟩ := (every_word hs).2 (exec_chan h3)
    obtain ⟨w3, w4⟩ := wordOk_iff w1
    obtain ⟨c1, c2, c3, c4⟩ := exec_mem h3
    have k1 : p.2.MP = s.MP := congrArg (fun c => c.2.2.1) m.side
    have hm' : ∀ i, 128 ≤ i → p.2.MP i = 0 := by rw [k1]; exact hm
    have d := exec_data h3 w4 w3
    refine ⟨⟨?_, ?_, ?_, ?_⟩, fun i hi => m.chg i (by rw [← c1]; exact hi)⟩
    · intro q1 q2 q3
      rw [c4] at q1
      obtain ⟨r1, r2, r3, r4⟩ := x.run q1
      unfold careful at r4
      simp only [Bool.or_eq_false_iff, beq_eq_false_iff_ne] at r4
      rcases exec_sar h3 r2 r3 r4.1.1 r4.1.2 r4.2 with r | r | r
      · rw [c2, r]; exact r1
      · rw [q2] at r; cases r
      · rw [q3] at r; cases r
    · intro q1 q2
      rw [c3] at q2
      rcases d with ⟨d1, d2⟩ | ⟨d1, d2, d3, d4, -⟩
      · rw [d2] at q1
        left; rw [c1, c2, d1]; exact x.free q1 q2
      · right
        have r := key_ix hm' d1 (x.st d4)
        unfold S.may at *
        rw [c2, d2, d3]; exact r
    · intro q1 q2 q3
      rw [c4] at q1; rw [c3] at q3
      rcases d with ⟨d1, d2⟩ | ⟨-, -, -, -, d5⟩
      · rw [d2] at q2
        rw [c1, c2, d1]; exact x.clean q1 q2 q3
      · rw [d5] at q2; cases q2
    · intro q1
      cases hi : iniW (ros s.ROAR) with
      | true => exact (w2 _ _ (exec_next h3)).2 hi
      | false =>
        obtain ⟨r1, r2⟩ := exec_ini h3 hi
        rw [r1, r2, x.im, x.ib] at q1
        rcases q1 with q1 | q1 <;> cases q1

theorem exec_core {e : Env} {w : Word} {ex : Bool} {s s' : S} (h : exec e w ex s = .ok s')
    (hw : sensitive w = false) :
    s'.KEY = s.KEY ∧ s'.MASK = s.MASK ∧ s'.AMWP = s.AMWP ∧ s'.wait = s.wait ∧ s'.MP = s.MP := by
  unfold sensitive at hw
  simp only [Bool.or_eq_false_iff, beq_eq_false_iff_ne] at hw
  obtain ⟨⟨⟨⟨⟨w1, w2⟩, w3⟩, w4⟩, -⟩, -⟩ := hw
  obtain ⟨x, y, h1, h2, rfl⟩ := exec_parts h
  have a := ((((fin_core w _).trans (up_core w _)).trans (wm_core w _ w2)).trans
    (ws_core w y)).trans (ssL_core h2 w4 w3)
  obtain ⟨b1, -, b2⟩ := tr_rest h1
  have c := early_core e w ex s
  refine ⟨?_, ?_, ?_, ?_, ?_⟩
  · exact (congrArg (fun c => c.2.2.1.1) a).trans ((b2 w1).trans (congrArg (fun c => c.2.2.1.1) c))
  · exact (congrArg (fun c => c.2.2.1.2) a).trans ((congrArg (fun c => c.2.1) b1).trans
      (congrArg (fun c => c.2.2.1.2) c))
  · exact (congrArg (fun c => c.2.2.2.1.1) a).trans ((congrArg (fun c => c.2.2.1.1) b1).trans
      (congrArg (fun c => c.2.2.2.1.1) c))
  · exact (congrArg (fun c => c.2.2.2.1.2) a).trans ((congrArg (fun c => c.2.2.1.2) b1).trans
      (congrArg (fun c => c.2.2.2.1.2) c))
  · exact (congrArg (fun c => c.2.2.2.2) a).trans ((congrArg (fun c => c.2.2.2) b1).trans
      (congrArg (fun c => c.2.2.2.2) c))

theorem mem_side {e : Env} {w : Word} {s : S} {p : Held} (h : memCycle e w s = .ok p) :
    p.2.side = s.side := by
  have hacc : ∀ s1 : S, s1.side = s.side → p = accept e w s1 → p.2.side = s.side := by
    rintro s1 h1 rfl
    unfold accept
    split
    · split <;> exact h1
    · exact h1
  unfold memCycle at h
  split at h
  · cases h; rfl
  · split at h
    · unfold fetch memRead at h
      split at h
      · cases h; rfl
      · split at h
        · cases h; rfl
        · cases h
    · cases h; rfl
  · split at h
    · cases h; rfl
    · split at h
      · unfold store memWrite at h
        split at h
        · cases h; rfl
        · split at h
          · cases h; rfl
          · cases h
      · cases h; rfl
  · cases h1 : writeBack e s with
    | oob => rw [h1] at h; cases h
    | chan => rw [h1] at h; cases h
    | ok s1 => rw [h1] at h; cases h; exact hacc s1 (writeBack_eq h1).1 rfl
  · unfold memRead at h
    split at h
    · change (writeBack e _).bind _ = _ at h
      cases h1 : writeBack e { s with SDR := s.mem (memIx s.SA), ms := .w1 } with
      | oob => rw [h1] at h; cases h
      | chan => rw [h1] at h; cases h
      | ok s1 => rw [h1] at h; cases h; exact hacc s1 (writeBack_eq h1).1 rfl
    · cases h

/-- Rights: protection key, system mask, AMWP bits, storage keys. -/
def S.rights (s : S) : (BitVec 4 × B) × BitVec 4 × (Nat → B) := ((s.KEY, s.MASK), s.AMWP, s.MP)

/-- One cycle of a problem program. -/
theorem prob_cycle {e : Env} {t : Bool} {s s' : S} (hr : e.ros = ros) (hp : prob s.ROAR = true)
    (hg : gate s.ROAR = false) (ha : s.AMWP &&& 1 ≠ 0) (h : cycle e t s = .ok s') :
    prob s'.ROAR = true ∧ s'.rights = s.rights := by
  have h1c0 : prob 0x1c0 = true := by decide +kernel
  obtain ⟨p, h1, h2⟩ := cycle_cases hr h
  have m : p.2.side = (tickStep t s).side := mem_side h1
  have mk : p.2.rights = s.rights :=
    congrArg (fun c => (c.1, c.2.1.1, c.2.2.1)) m
  obtain ⟨k1, k2⟩ := prob_word hp hg
  rcases h2 with ⟨-, rfl⟩ | ⟨h2, h3⟩
  · refine ⟨?_, mk⟩
    rcases mem_roar h1 with h3 | ⟨-, h3⟩
    · rw [h3]; exact hp
    · rw [h3]; exact h1c0
  · have ha' : (p.2.AMWP &&& 1 != 0) = true := by
      rw [show p.2.AMWP = s.AMWP from congrArg (fun c => c.2.1) mk]; exact bne_iff_ne.2 ha
    have h4 := exec_next h3
    rw [ha'] at h4
    refine ⟨k2 _ h4, ?_⟩
    obtain ⟨c1, c2, c3, -, c5⟩ := exec_core h3 k1
    rw [← mk]
    unfold S.rights
    rw [c1, c2, c3, c5]

/-- It does not need a channel. -/
theorem prob_chan {e : Env} {t : Bool} {s : S} (hr : e.ros = ros) (hp : prob s.ROAR = true)
    (hg : gate s.ROAR = false) : cycle e t s ≠ .chan := by
  have k1 := (prob_word hp hg).1
  have kc : needsChan (ros s.ROAR) = false := by
    unfold sensitive at k1; rw [Bool.or_eq_false_iff] at k1; exact k1.2
  have hb : ∀ {α β : Type} (o : Out α) (f : α → Out β), o ≠ .chan → (∀ a, f a ≠ .chan) →
      o.bind f ≠ .chan := by
    intro α β o f h1 h2
    cases o with
    | ok a => exact h2 a
    | oob => exact fun h => nomatch h
    | chan => exact absurd rfl h1
  have hpr : ∀ (y : X) (k : X → X), protect y k ≠ .chan := by
    intro y k h
    unfold protect at h
    split at h
    · cases h
    · split at h
      · split at h <;> cases h
      · cases h
  unfold cycle
  rw [hr]
  refine hb _ _ ?_ fun p => ?_
  · have hw : ∀ s, writeBack e s ≠ .chan := by
      intro s; unfold writeBack
      split
      · split
        · exact fun h => nomatch h
        · split <;> exact fun h => nomatch h
      · exact fun h => nomatch h
    have hrd : ∀ s, memRead e s ≠ .chan := by
      intro s; unfold memRead; split <;> exact fun h => nomatch h
    unfold memCycle
    split
    · exact fun h => nomatch h
    · refine hb _ _ ?_ fun _ h => nomatch h
      split
      · unfold fetch
        split
        · exact fun h => nomatch h
        · exact hb _ _ (hrd _) fun _ h => nomatch h
      · exact fun h => nomatch h
    · split
      · exact fun h => nomatch h
      · split
        · refine hb _ _ ?_ fun _ h => nomatch h
          unfold store memWrite
          split
          · exact fun h => nomatch h
          · split <;> exact fun h => nomatch h
        · exact fun h => nomatch h
    · exact hb _ _ (hw _) fun _ h => nomatch h
    · exact hb _ _ (hrd _) fun _ => hb _ _ (hw _) fun _ h => nomatch h
  · show (if p.1 then Out.ok p.2 else _) ≠ _
    split
    · exact fun h => nomatch h
    · unfold exec
      rw [kc]
      refine hb _ _ ?_ fun x => hb _ _ ?_ fun _ h => nomatch h
      · intro h
        unfold trStep at h
        split at h
        all_goals first
          | cases h
          | exact hpr _ _ h
          | (split at h <;> cases h)
      · intro h
        unfold ssLate at h
        split at h
        all_goals first
          | cases h
          | (split at h <;> cases h)

/-! ### Runs -/

theorem run_succ {e : Env} {tick : Nat → Bool} {n : Nat} {s : S} {r : Out S}
    (h : run e tick (n + 1) s = r) (hr : r ≠ .chan ∧ r ≠ .oob ∨ cycle e (tick 0) s ≠ .chan ∧ r ≠ .oob) :
    ∃ s1, cycle e (tick 0) s = .ok s1 ∧ run e (fun i => tick (i + 1)) n s1 = r := by
  change (cycle e (tick 0) s).bind _ = r at h
  cases h1 : cycle e (tick 0) s with
  | ok s1 => rw [h1] at h; exact ⟨s1, rfl, h⟩
  | oob => rw [h1] at h; subst h; rcases hr with hr | hr <;> exact absurd rfl hr.2
  | chan => rw [h1] at h hr; subst h; rcases hr with hr | hr <;> exact absurd rfl hr.1

/-- An invariant of the cycle is an invariant of runs. -/
theorem run_ind {e : Env} (P : S → Prop) (hP : ∀ t s s', P s → cycle e t s = .ok s' → P s') :
    ∀ (n : Nat) (tick : Nat → Bool) (s s' : S), P s → run e tick n s = .ok s' → P s'
  | 0, _, _, _, h, hr => by cases hr; exact h
  | n + 1, tick, s, s', h, hr => by
    obtain ⟨s1, h1, h2⟩ := run_succ hr (.inl ⟨(fun h => nomatch h), (fun h => nomatch h)⟩)
    exact run_ind P hP n _ s1 s' (hP _ _ _ h h1) h2

theorem ready_prob {e : Env} {tk : Bool} {a : Arch} {s : S} (h : Ready e tk a s) :
    prob s.ROAR = true ∧ careful (ros s.ROAR) = false := by
  have key : ∀ n ∈ [0x148, 0x14a, 0x146, 0x149, 0x145, 0x102],
      prob n = true ∧ careful (ros n) = false := by decide +kernel
  rcases h with ⟨-, -, h, -⟩ | ⟨-, -, h | h, -⟩ | ⟨-, -, h | h, -⟩ | ⟨-, -, h, -⟩ <;>
    rw [h] <;> exact key _ (by decide)

theorem ready_asks {e : Env} {tk : Bool} {a : Arch} {s : S} (h : Ready e tk a s) : Asks e tk s := by
  rcases h with ⟨h, -⟩ | ⟨h, -⟩ | ⟨h, -⟩ | ⟨h, -⟩ <;> exact h

theorem ready_guard {e : Env} {tk : Bool} {a : Arch} {s : S} (h : Ready e tk a s) : Guard s := by
  have q := ready_asks h
  refine ⟨?_, fun h1 _ => .inl (q.st h1).2.2, ?_, fun _ => (ready_prob h).2⟩
  · rw [q.ms]; rintro (h | h | h) <;> cases h
  · rw [q.ms]; intro h; cases h

/-- C133. The microprogram stays in control storage: from any state between two instructions,
whatever the program and the operands are and whenever the timer ticks, every microinstruction
carried out up to a channel operation is one of the listing, at an address below 4096. -/
theorem C133_control_storage {e : Env} {tk : Bool} {a : Arch} {s : S} (ho : EnvOk e)
    (h : Ready e tk a s) (tick : Nat → Bool) (n : Nat) {s' : S} (hr : run e tick n s = .ok s') :
    s'.ROAR < 4096 ∧ ros s'.ROAR ≠ decodeWord 0 := by
  have h1 : every s'.ROAR = true :=
    run_ind (fun s => every s.ROAR = true) (fun _ _ _ h1 h2 => every_cycle ho.ros h1 h2) n tick s s'
      (prob_every (ready_prob h).1) hr
  exact ⟨every_lt h1, (every_word h1).1⟩

theorem prob_run {e : Env} (ho : EnvOk e) : ∀ (n : Nat) (tick : Nat → Bool) (s : S),
    prob s.ROAR = true → s.AMWP &&& 1 ≠ 0 →
    (∀ k < n, ∀ s1, run e tick k s = .ok s1 → gate s1.ROAR = false) →
    run e tick n s ≠ .chan ∧ ∀ s', run e tick n s = .ok s' →
      prob s'.ROAR = true ∧ s'.rights = s.rights
  | 0, _, _, hp, _, _ => ⟨(fun h => nomatch h), fun _ h => by cases h; exact ⟨hp, rfl⟩⟩
  | n + 1, tick, s, hp, ha, hg => by
    have g0 := hg 0 (Nat.succ_pos n) s rfl
    have c0 := prob_chan (t := tick 0) ho.ros hp g0
    have go : ∀ s1, cycle e (tick 0) s = .ok s1 →
        run e (fun i => tick (i + 1)) n s1 ≠ .chan ∧
        ∀ s', run e (fun i => tick (i + 1)) n s1 = .ok s' →
          prob s'.ROAR = true ∧ s'.rights = s1.rights := by
      intro s1 h1
      obtain ⟨k1, k2⟩ := prob_cycle ho.ros hp g0 ha h1
      refine prob_run ho n _ s1 k1 ?_ fun k hk s2 h2 => hg (k + 1) (Nat.succ_lt_succ hk) s2 ?_
      · rw [show s1.AMWP = s.AMWP from congrArg (fun c => c.2.1) k2]; exact ha
      · show (cycle e (tick 0) s).bind _ = _
        rw [h1]; exact h2
    constructor
    · intro h
      obtain ⟨s1, h1, h2⟩ := run_succ h (.inr ⟨c0, (fun h => nomatch h)⟩)
      exact (go s1 h1).1 h2
    · intro s' h
      obtain ⟨s1, h1, h2⟩ := run_succ h (.inl ⟨(fun h => nomatch h), (fun h => nomatch h)⟩)
      obtain ⟨k1, k2⟩ := (go s1 h1).2 s' h2
      exact ⟨k1, k2.trans (prob_cycle ho.ros hp g0 ha h1).2⟩

/-- Storage in blocks the key does not open stays. -/
theorem prob_mem {e : Env} (ho : EnvOk e) : ∀ (n : Nat) (tick : Nat → Bool) (s s' : S),
    prob s.ROAR = true → s.AMWP &&& 1 ≠ 0 → Guard s → (∀ i, 128 ≤ i → s.MP i = 0) →
    (∀ k < n, ∀ s1, run e tick k s = .ok s1 → gate s1.ROAR = false) →
    run e tick n s = .ok s' → ∀ i, ¬ s.may i → s'.mem i = s.mem i
  | 0, _, _, _, _, _, _, _, _, h => by cases h; exact fun _ _ => rfl
  | n + 1, tick, s, s', hp, ha, hG, hm, hg, h => by
    have g0 := hg 0 (Nat.succ_pos n) s rfl
    obtain ⟨s1, h1, h2⟩ := run_succ h (.inl ⟨(fun h => nomatch h), (fun h => nomatch h)⟩)
    obtain ⟨k1, k2⟩ := prob_cycle ho.ros hp g0 ha h1
    obtain ⟨k3, k4⟩ := guard_cycle ho.ros hG (prob_every hp) hm h1
    have e1 : s1.KEY = s.KEY := congrArg (fun c => c.1.1) k2
    have e2 : s1.MP = s.MP := congrArg (fun c => c.2.2) k2
    intro i hi
    have h3 := prob_mem ho n _ s1 s' k1
      (by rw [show s1.AMWP = s.AMWP from congrArg (fun c => c.2.1) k2]; exact ha) k3
      (by rw [e2]; exact hm)
      (fun k hk s2 h2 => hg (k + 1) (Nat.succ_lt_succ hk) s2 (by
        show (cycle e (tick 0) s).bind _ = _
        rw [h1]; exact h2)) h2 i (by unfold S.may at *; rw [e1, e2]; exact hi)
    rw [h3]
    by_cases hc : s1.mem i = s.mem i
    · exact hc
    · exact absurd (k4 i hc) hi

/-- C134. A problem program, whatever instructions it consists of, cannot help itself: from any
state between two instructions, however long it runs and whenever the timer ticks, up to the
beginning of an interruption (`gate`: the words which find an exceptional condition between two
instructions or begin the exchange of PSWs) no channel is addressed, protection key, system mask,
AMWP bits and storage keys are what they were, and so is every word of storage in a block whose
storage key is not the nonzero protection key. Storage keys beyond 256K, where there is no
storage, are zero. -/
theorem C134_problem_program {e : Env} {tk : Bool} {a : Arch} {s : S} (ho : EnvOk e)
    (h : Ready e tk a s) (hp : a.amwp &&& 1 ≠ 0) (hm : ∀ i, 128 ≤ i → a.keys i = 0)
    (tick : Nat → Bool) (n : Nat)
    (hg : ∀ k < n, ∀ s1, run e tick k s = .ok s1 → gate s1.ROAR = false) :
    run e tick n s ≠ .chan ∧ ∀ s', run e tick n s = .ok s' →
      s'.KEY = a.key ∧ s'.MASK = a.mask ∧ s'.AMWP = a.amwp ∧ s'.MP = a.keys ∧
      ∀ i, a.key ≠ 0 → a.key.setWidth 8 ≠ a.keys (i / 512) → s'.mem i = a.mem i := by
  have v := Bd.visible (.inl h)
  have v1 : s.KEY = a.key := congrArg Arch.key v
  have v2 : s.MASK = a.mask := congrArg Arch.mask v
  have v3 : s.AMWP = a.amwp := congrArg Arch.amwp v
  have v4 : s.MP = a.keys := congrArg Arch.keys v
  have v5 : s.mem = a.mem := congrArg Arch.mem v
  have hp' : s.AMWP &&& 1 ≠ 0 := by rw [v3]; exact hp
  obtain ⟨k1, k2⟩ := prob_run ho n tick s (ready_prob h).1 hp' hg
  refine ⟨k1, fun s' hr => ?_⟩
  have k3 := (k2 s' hr).2
  refine ⟨(congrArg (fun c => c.1.1) k3).trans v1, (congrArg (fun c => c.1.2) k3).trans v2,
    (congrArg (fun c => c.2.1) k3).trans v3, (congrArg (fun c => c.2.2) k3).trans v4, ?_⟩
  intro i h1 h2
  rw [← v5]
  refine prob_mem ho n tick s s' (ready_prob h).1 hp' (ready_guard h) (by rw [v4]; exact hm) hg hr i ?_
  unfold S.may
  rw [v1, v4]
  rintro (h3 | h3)
  · exact h1 h3
  · exact h2 h3

/-- C135. Storage protection in every machine cycle: after any run from a state between two
instructions, in any state, with any instructions and interruptions, a word of storage changes in
the next cycle only if the protection key is then zero or the storage key of the word's block.
Storage keys beyond 256K are zero. -/
theorem C135_protection {e : Env} {tk : Bool} {a : Arch} {s : S} (ho : EnvOk e)
    (h : Ready e tk a s) (tick : Nat → Bool) (n : Nat)
    (hm : ∀ k ≤ n, ∀ s1, run e tick k s = .ok s1 → ∀ i, 128 ≤ i → s1.MP i = 0)
    {s1 s2 : S} (h1 : run e tick n s = .ok s1) (t : Bool) (h2 : cycle e t s1 = .ok s2) :
    ∀ i, s2.mem i ≠ s1.mem i → s1.KEY = 0 ∨ s1.KEY.setWidth 8 = s1.MP (i / 512) := by
  have key : ∀ (n : Nat) (tick : Nat → Bool) (s : S), Guard s → every s.ROAR = true →
      (∀ k ≤ n, ∀ s1, run e tick k s = .ok s1 → ∀ i, 128 ≤ i → s1.MP i = 0) →
      ∀ s1, run e tick n s = .ok s1 → Guard s1 ∧ every s1.ROAR = true := by
    intro n
    induction n with
    | zero => intro tick s g q _ s1 h; cases h; exact ⟨g, q⟩
    | succ n ih =>
      intro tick s g q hm s1 h
      obtain ⟨s0, k1, k2⟩ := run_succ h (.inl ⟨(fun h => nomatch h), (fun h => nomatch h)⟩)
      refine ih _ s0 (guard_cycle ho.ros g q (hm 0 (Nat.zero_le _) s rfl) k1).1
        (every_cycle ho.ros q k1) (fun k hk s3 h3 => hm (k + 1) (Nat.succ_le_succ hk) s3 ?_) s1 k2
      show (cycle e (tick 0) s).bind _ = _
      rw [k1]; exact h3
  obtain ⟨g, q⟩ := key n tick s (ready_guard h) (prob_every (ready_prob h).1) hm s1 h1
  exact (guard_cycle ho.ros g q (hm n (Nat.le_refl _) s1 h1) h2).2

/-! ### Requests for interruptions -/

theorem mem_asks {e : Env} {w : Word} {s : S} {p : Held} (h : memCycle e w s = .ok p) :
    p.2.asks = s.asks := by
  have hwb : ∀ s s1 : S, writeBack e s = .ok s1 → s1.asks = s.asks := by
    intro s s1 h1
    unfold writeBack at h1
    split at h1
    · split at h1
      · cases h1; rfl
      · split at h1
        · cases h1; rfl
        · cases h1
    · cases h1; rfl
  have hacc : ∀ s1 : S, s1.asks = s.asks → p = accept e w s1 → p.2.asks = s.asks := by
    rintro s1 h1 rfl
    unfold accept
    split
    · split <;> exact h1
    · exact h1
  unfold memCycle at h
  split at h
  · cases h; rfl
  · split at h
    · unfold fetch memRead at h
      split at h
      · cases h; rfl
      · split at h
        · cases h; rfl
        · cases h
    · cases h; rfl
  · split at h
    · cases h; rfl
    · split at h
      · unfold store memWrite at h
        split at h
        · cases h; rfl
        · split at h
          · cases h; rfl
          · cases h
      · cases h; rfl
  · cases h1 : writeBack e s with
    | oob => rw [h1] at h; cases h
    | chan => rw [h1] at h; cases h
    | ok s1 => rw [h1] at h; cases h; exact hacc s1 (hwb _ _ h1) rfl
  · unfold memRead at h
    split at h
    · change (writeBack e _).bind _ = _ at h
      cases h1 : writeBack e { s with SDR := s.mem (memIx s.SA), ms := .w1 } with
      | oob => rw [h1] at h; cases h
      | chan => rw [h1] at h; cases h
      | ok s1 => rw [h1] at h; cases h; have q := hwb _ _ h1; exact hacc s1 q rfl
    · cases h

theorem ssL_asks {e : Env} {w : Word} {x x' : X} (h : ssLate e w x = .ok x') :
    x'.s.timUp = x.s.timUp ∧ (x.s.timIrq = true → x'.s.timIrq = true) ∧ x'.s.intr = x.s.intr ∧
    x'.s.load = x.s.load ∧ x'.s.man = x.s.man ∧ x'.s.BCHI = x.s.BCHI := by
  unfold ssLate at h
  split at h
  all_goals first
    | (cases h; exact ⟨rfl, id, rfl, rfl, rfl, rfl⟩)
    | (cases h; exact ⟨rfl, fun _ => rfl, rfl, rfl, rfl, rfl⟩)
    | (split at h <;> first | (cases h; exact ⟨rfl, id, rfl, rfl, rfl, rfl⟩) | cases h)

theorem wm_asks (w : Word) (x : X) (hl : x.s.load = false) : (wmStep w x).s.asks = x.s.asks := by
  have hk : ∀ b c : Bool, c = false → (b && !c) = b := by decide
  unfold wmStep
  split
  case h_4 =>
    show ((x.s.timUp && !x.s.load, x.s.timIrq && !x.s.load, x.s.intr), (false, x.s.man, x.s.stop),
      x.s.BCHI) = _
    rw [hk _ _ hl, hk _ _ hl, ← hl]; rfl
  all_goals rfl

/-- What a word does to the requests. -/
theorem exec_asks {e : Env} {w : Word} {ex : Bool} {s s' : S} (h : exec e w ex s = .ok s')
    (hl : s.load = false) :
    s'.timUp = (if w.ab = 37 then false else s.timUp) ∧
    ((if w.lu = 4 then false else s.timIrq) = true → s'.timIrq = true) ∧
    s'.intr = (if w.lu = 4 && !s.timIrq then false else s.intr) ∧
    s'.load = false ∧ s'.man = s.man ∧ s'.BCHI = s.BCHI := by
  obtain ⟨x, y, h1, h2, rfl⟩ := exec_parts h
  obtain ⟨-, b, -⟩ := tr_rest h1
  have c : x.s.asks = (front e w ex s).s.asks := b.trans (early_asks e w ex s)
  obtain ⟨d1, d2, d3, d4, d5, d6⟩ := ssL_asks h2
  have dl : y.s.load = false := d4.trans ((congrArg (fun c => c.2.1.1) c).trans hl)
  have a : (finish w (upStep w (wmStep w (wsStep w y)))).asks = y.s.asks := by
    rw [fin_asks, up_asks, wm_asks _ _ ((congrArg (fun c => c.2.1.1) (ws_asks w y)).trans dl),
      ws_asks]
  refine ⟨?_, fun q => ?_, ?_, ?_, ?_, ?_⟩
  · exact (congrArg (fun c => c.1.1) a).trans (d1.trans (congrArg (fun c => c.1.1) c))
  · exact (congrArg (fun c => c.1.2.1) a).trans (d2 ((congrArg (fun c => c.1.2.1) c).trans q))
  · exact (congrArg (fun c => c.1.2.2) a).trans (d3.trans (congrArg (fun c => c.1.2.2) c))
  · exact (congrArg (fun c => c.2.1.1) a).trans dl
  · exact (congrArg (fun c => c.2.1.2.1) a).trans (d5.trans (congrArg (fun c => c.2.1.2.1) c))
  · exact (congrArg (fun c => c.2.2) a).trans (d6.trans (congrArg (fun c => c.2.2) c))

/-- The words which take requests. -/
def takes (n : Nat) : Bool :=
  !every n || ((ros n).ab != 37 || n == 0x18f) && ((ros n).lu != 4 || n == 0x1a1)

theorem takes_all : ∀ n < 4096, takes n = true := by
  have h : ∀ k < 16, ∀ j < 256, takes (256 * k + j) = true := by decide +kernel
  intro n hn
  have := h (n / 256) (by omega) (n % 256) (by omega)
  rwa [Nat.div_add_mod] at this

theorem asks_cycle {e : Env} {t : Bool} {s s' : S} (hr : e.ros = ros) (hs : every s.ROAR = true)
    (hl : s.load = false) (h : cycle e t s = .ok s') :
    s'.load = false ∧
    (s.timUp = true ∨ t = true ∧ s.man = false →
      s'.timUp = true ∨ s.ROAR = 0x18f ∧ s'.ROAR = 0x1a3) ∧
    (s.timIrq = true → s'.timIrq = true ∨ s.ROAR = 0x1a1 ∧ s'.MD = 8 ∧ s'.F = 0) ∧
    (s.intr = true → s'.intr = true ∨
      s.ROAR = 0x1a1 ∧ s.timIrq = false ∧ s'.MD = 4 ∧ s'.F = 0) ∧
    s'.man = s.man ∧ s'.BCHI = s.BCHI := by
  obtain ⟨p, h1, h2⟩ := cycle_cases hr h
  have m := mem_asks h1
  have m1 : p.2.timUp = (s.timUp || (t && !s.man)) := congrArg (fun c => c.1.1) m
  have m2 : p.2.timIrq = s.timIrq := congrArg (fun c => c.1.2.1) m
  have m3 : p.2.intr = s.intr := congrArg (fun c => c.1.2.2) m
  have m4 : p.2.load = s.load := congrArg (fun c => c.2.1.1) m
  have m5 : p.2.man = s.man := congrArg (fun c => c.2.1.2.1) m
  have m6 : p.2.BCHI = s.BCHI := congrArg (fun c => c.2.2) m
  have hup : s.timUp = true ∨ t = true ∧ s.man = false → p.2.timUp = true := by
    rw [m1]
    rintro (h | ⟨h, h'⟩)
    · rw [h]; rfl
    · rw [h, h']; simp
  rcases h2 with ⟨-, rfl⟩ | ⟨h2, h3⟩
  · exact ⟨m4.trans hl, fun q => .inl (hup q), fun q => .inl (m2.trans q),
      fun q => .inl (m3.trans q), m5, m6⟩
  · obtain ⟨k1, k2, k3, k4, k5, k6⟩ := exec_asks h3 (m4.trans hl)
    have ht := takes_all _ (every_lt hs)
    unfold takes at ht
    rw [hs, Bool.not_true, Bool.false_or, Bool.and_eq_true, Bool.or_eq_true, Bool.or_eq_true,
      bne_iff_ne, bne_iff_ne, beq_iff_eq, beq_iff_eq] at ht
    obtain ⟨t1, t2⟩ := ht
    refine ⟨k4, fun q => ?_, fun q => ?_, fun q => ?_, k5.trans m5, k6.trans m6⟩
    · have q' := hup q
      rcases t1 with t1 | t1
      · rw [if_neg t1] at k1; exact .inl (k1.trans q')
      · right
        rw [t1, x18f] at h3
        cases h3
        exact ⟨t1, by show 416 ||| 2 * p.2.timUp.toNat + 1 = _; rw [q']; rfl⟩
    · rcases t2 with t2 | t2
      · rw [if_neg t2] at k2; exact .inl (k2 (m2.trans q))
      · right
        rw [t2, x1a1] at h3
        cases h3
        exact ⟨t2, by simp [m2, q], by simp [m2, q]⟩
    · rcases t2 with t2 | t2
      · rw [if_neg (by simp [t2])] at k3; exact .inl (k3.trans (m3.trans q))
      · cases hi : s.timIrq with
        | true =>
          rw [if_neg (by simp [m2, hi])] at k3
          exact .inl (k3.trans (m3.trans q))
        | false =>
          right
          rw [t2, x1a1] at h3
          cases h3
          exact ⟨t2, rfl, by simp [m2, m3, hi, q], by simp [m2, m3, hi, q]⟩

/-- C136. Requests for interruptions are not lost: after any run from a state between two
instructions, in the next cycle
* a request of the interval timer to be stepped, also one arriving with this cycle, stays or the
  stepping begins (word 1a3);
* a request for an external interruption by the timer stays or word 1a1, the beginning of the
  external interruption, puts 80 in the interruption code;
* one by the interruption key stays or that word, there being no request by the timer, puts 40
  in it;
* the manual state and the channels' requests stay.
However long the requests are masked and whatever the program does. -/
theorem C136_requests {e : Env} {tk : Bool} {a : Arch} {s : S} (ho : EnvOk e)
    (h : Ready e tk a s) (hl : s.load = false) (tick : Nat → Bool) (n : Nat)
    {s1 s2 : S} (h1 : run e tick n s = .ok s1) (t : Bool) (h2 : cycle e t s1 = .ok s2) :
    (s1.timUp = true ∨ t = true ∧ s1.man = false →
      s2.timUp = true ∨ s1.ROAR = 0x18f ∧ s2.ROAR = 0x1a3) ∧
    (s1.timIrq = true → s2.timIrq = true ∨ s1.ROAR = 0x1a1 ∧ s2.MD = 8 ∧ s2.F = 0) ∧
    (s1.intr = true → s2.intr = true ∨
      s1.ROAR = 0x1a1 ∧ s1.timIrq = false ∧ s2.MD = 4 ∧ s2.F = 0) ∧
    s2.man = s1.man ∧ s2.BCHI = s1.BCHI := by
  obtain ⟨k1, k2⟩ := run_ind (fun s => every s.ROAR = true ∧ s.load = false)
    (fun _ _ _ h1 h2 => ⟨every_cycle ho.ros h1.1 h2, (asks_cycle ho.ros h1.1 h1.2 h2).1⟩)
    n tick s s1 ⟨prob_every (ready_prob h).1, hl⟩ h1
  exact (asks_cycle ho.ros k1 k2 h2).2

/-! ### Concrete cases -/

/-- The run does not reach an interruption. -/
def noGate (e : Env) : Nat → S → Bool
  | 0, _ => true
  | n + 1, s => !gate s.ROAR && match cycle e false s with
    | .ok s1 => noGate e n s1
    | _ => true

theorem noGate_spec {e : Env} : ∀ (n : Nat) (s : S), noGate e n s = true → ∀ k < n, ∀ s1,
    run e (fun _ => false) k s = .ok s1 → gate s1.ROAR = false
  | 0, _, _, k, hk, _, _ => absurd hk (Nat.not_lt_zero k)
  | n + 1, s, h, k, hk, s1, hr => by
    unfold noGate at h
    rw [Bool.and_eq_true] at h
    cases k with
    | zero => cases hr; simpa using h.1
    | succ k =>
      obtain ⟨s0, h1, h2⟩ := run_succ hr (.inl ⟨(fun h => nomatch h), (fun h => nomatch h)⟩)
      rw [h1] at h
      exact noGate_spec n s0 h.2 k (Nat.lt_of_succ_lt_succ hk) s1 h2

/-- A program with protection key 3 in the problem state, at 100: `LA 1,7`, `ST 1,A00`,
`MVC A08(4),A00`, `ST 1,200`. -/
def thief : Nat → W
  | 0x40 => 0x41100007
  | 0x41 => 0x50100a00
  | 0x42 => 0xd2030a08
  | 0x43 => 0x0a005010
  | 0x44 => 0x02000700
  | _ => 0

/-- The processor before it. Block 0 has the key 4, block 1 the key 3. -/
def startT : S :=
  { initMem := true, ms := .w1, ROAR := 0x14a, SAR := 0x100, IA := 0x100, mem := thief, KEY := 3,
    AMWP := 1, MP := fun i => if i = 0 then 4 else if i = 1 then 3 else 0, LS := fun _ => 0 }

/-- Its architecture state. -/
def archT : Arch :=
  { gr := fun _ => 0, fr := fun _ => 0, cc := 0, pm := 0, ia := 0x100, mem := thief,
    keys := fun i => if i = 0 then 4 else if i = 1 then 3 else 0,
    key := 3, amwp := 1, mask := 0, sys := 0 }

theorem startT_ready (tk : Bool) : Ready e64 tk archT startT := by
  refine .even ⟨rfl, rfl, rfl, ?_, (fun h => nomatch h), fun _ => by simp [exc, startT]⟩ ?_
    (.inl rfl) rfl ?_ ?_
  · show (0x100#32).toNat ≤ _
    decide
  · show (0#8).toNat < 16
    decide
  · show (0x100#32).toNat % 4 = 0
    decide
  · show (0x100#32).toNat / 4 = (0x100#32).toNat / 4
    rfl

theorem thief_runs : noGate e64 60 startT = true ∧
    (match run e64 (fun _ => false) 60 startT with
      | .ok s => s.mem 0x280 == 7 && s.mem 0x282 == 7 && s.ROAR == 0x19c
      | _ => false) = true := by
  decide +kernel

/-- Not vacuous (C134): in 60 cycles the program stores a word in its own block and moves it with
`MVC`, which the specification of C110 does not contain; then it is stopped before the store in the
foreign block. -/
theorem C134_example : ∃ s', run e64 (fun _ => false) 60 startT = .ok s' ∧
    s'.mem 0x280 = 7 ∧ s'.mem 0x282 = 7 ∧ s'.ROAR = 0x19c ∧
    s'.KEY = 3 ∧ s'.AMWP = 1 ∧ s'.mem 0x80 = 0 := by
  obtain ⟨h1, h2⟩ := thief_runs
  have h3 := (C134_problem_program e64_ok (startT_ready false) (by decide)
    (fun i hi => by
      show (if i = 0 then (4 : B) else if i = 1 then 3 else 0) = 0
      rw [if_neg (by omega), if_neg (by omega)])
    (fun _ => false) 60 (noGate_spec 60 _ h1)).2
  cases hr : run e64 (fun _ => false) 60 startT with
  | ok s' =>
    rw [hr] at h2
    simp only [Bool.and_eq_true, beq_iff_eq] at h2
    obtain ⟨k1, -, k3, -, k5⟩ := h3 s' hr
    exact ⟨s', rfl, h2.1.1, h2.1.2, h2.2, k1, k3, k5 0x80 (by decide) (by decide)⟩
  | oob => rw [hr] at h2; cases h2
  | chan => rw [hr] at h2; cases h2

/-- Not vacuous (C135): the hypothesis holds of this program, and storage changes. -/
theorem C135_example : ∃ s1, run e64 (fun _ => false) 60 startT = .ok s1 ∧
    s1.mem 0x280 ≠ startT.mem 0x280 ∧
    (∀ k ≤ 60, ∀ s2, run e64 (fun _ => false) k startT = .ok s2 → ∀ i, 128 ≤ i → s2.MP i = 0) := by
  obtain ⟨s1, h1, h2, -⟩ := C134_example
  refine ⟨s1, h1, by rw [h2]; decide, fun k hk s2 h3 i hi => ?_⟩
  have h4 := (C134_problem_program e64_ok (startT_ready false) (by decide)
    (fun i hi => by
      show (if i = 0 then (4 : B) else if i = 1 then 3 else 0) = 0
      rw [if_neg (by omega), if_neg (by omega)])
    (fun _ => false) k (fun j hj => noGate_spec 60 _ thief_runs.1 j (by omega))).2 s2 h3
  rw [h4.2.2.2.1]
  show (if i = 0 then (4 : B) else if i = 1 then 3 else 0) = 0
  rw [if_neg (by omega), if_neg (by omega)]

/-- Not vacuous (C136): the program with requests of timer and interruption key, both masked. -/
def startM : S := { startT with timIrq := true, intr := true }

theorem startM_ready : Ready e64 true archT startM := by
  refine .even ⟨rfl, rfl, rfl, ?_, (fun h => nomatch h), fun h => nomatch h⟩ ?_
    (.inl rfl) rfl ?_ ?_
  · show (0x100#32).toNat ≤ _
    decide
  · show (0#8).toNat < 16
    decide
  · show (0x100#32).toNat % 4 = 0
    decide
  · show (0x100#32).toNat / 4 = (0x100#32).toNat / 4
    rfl

theorem C136_example : ∃ s1 s2, run e64 (fun _ => false) 60 startM = .ok s1 ∧
    cycle e64 false s1 = .ok s2 ∧ s1.timIrq = true ∧ s1.intr = true ∧ s2.timIrq = true := by
  have h : (match run e64 (fun _ => false) 60 startM with
      | .ok s => (match cycle e64 false s with | .ok s2 => true | _ => false) &&
        s.timIrq && s.intr && s.ROAR == 0x19c
      | _ => false) = true := by decide +kernel
  cases hr : run e64 (fun _ => false) 60 startM with
  | ok s1 =>
    rw [hr] at h
    simp only [Bool.and_eq_true, beq_iff_eq] at h
    obtain ⟨⟨⟨h1, h2⟩, h3⟩, h4⟩ := h
    cases hc : cycle e64 false s1 with
    | ok s2 =>
      refine ⟨s1, s2, rfl, hc, h2, h3, ?_⟩
      rcases (C136_requests e64_ok startM_ready rfl (fun _ => false) 60 hr false hc).2.1 h2 with
        k | ⟨k, -⟩
      · exact k
      · rw [h4] at k; cases k
    | oob => rw [hc] at h1; cases h1
    | chan => rw [hc] at h1; cases h1
  | oob => rw [hr] at h; cases h
  | chan => rw [hr] at h; cases h

end Verif.Cpu50
