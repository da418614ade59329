import Verif.Ctl2841.Phase

/-!
# The 2841: control storage and the current drive

Whatever the schedule, the next word is in control storage and the current drive, if there is one,
is attached.
-/

namespace Verif.Ctl2841
open Verif.Ctl2844 hiding Ctx.regs Regs Base Pos Calm Sel Stage

/-- The program goes on, with `P`, or it ends in the drive; it does not leave control storage, does not
reach through a null pointer and does not use a value nobody has set. -/
def Good {α : Type} (P : α → Prop) : Out α → Prop
  | .ok a => P a
  | .oob => False
  | .null => False
  | .drive => True
  | .undef => False

theorem Good.bind {α β : Type} {P : α → Prop} {Q : β → Prop} {x : Out α} {f : α → Out β} (h : Good P x)
    (hf : ∀ a, P a → Good Q (f a)) : Good Q (x.bind f) := by
  cases x with
  | ok a => exact hf a h
  | oob => exact h.elim
  | null => exact h.elim
  | drive => exact True.intro
  | undef => exact h.elim

theorem Good.imp {α : Type} {P Q : α → Prop} {x : Out α} (h : Good P x) (hi : ∀ a, P a → Q a) : Good Q x := by
  cases x with
  | ok a => exact hi a h
  | oob => exact h
  | null => exact h
  | drive => exact h
  | undef => exact h

theorem good_ofRes {α : Type} (r : Card.Res α) : Good (fun _ => True) (ofRes r) := by
  cases r <;> exact True.intro

/-- Reading a byte does not depend on `am`, which is not set before. -/
theorem good_unset (d : Dasd.S) (n : Nat) (i : Bool) :
    Good (fun _ => True) (unset false (Dasd.readByte d) { data := n, am := false, ix := i } { data := n, am := true, ix := i }) := by
  unfold unset
  by_cases hs : d.step < d.ty.rate
  · have e : ∀ io, Dasd.readByte d io = .ok ({ d with step := d.step + 1 }, false, io) := by
      intro io
      unfold Dasd.readByte
      rw [if_pos hs]
    rw [e, e]
    show Good _ (if agree false _ _ = true then _ else _)
    rw [if_pos (by simp [agree])]
    exact True.intro
  · have e : Dasd.readByte d { data := n, am := false, ix := i } = Dasd.readByte d { data := n, am := true, ix := i } := by
      unfold Dasd.readByte
      rw [if_neg hs, if_neg hs]
    rw [e]
    cases Dasd.readByte d { data := n, am := true, ix := i } with
    | ok x =>
      show Good _ (if agree false _ _ = true then _ else _)
      rw [if_pos (by simp [agree])]
      exact True.intro
    | _ => exact True.intro

/-- What the drives' turn leaves alone. -/
def Keeps (c c' : Ctx) : Prop := c'.WX = c.WX ∧ c'.cur = c.cur ∧ ∀ i, (c.disk i).isSome = true → (c'.disk i).isSome = true

theorem Keeps.trans {c c' c'' : Ctx} (h : Keeps c c') (k : Keeps c' c'') : Keeps c c'' :=
  ⟨k.1.trans h.1, k.2.1.trans h.2.1, fun i hi => k.2.2 i (h.2.2 i hi)⟩

theorem keeps_setDisk (c : Ctx) (i : BitVec 3) (d : Dasd.S) : Keeps c (setDisk c i d) := by
  refine ⟨rfl, rfl, fun j hj => ?_⟩
  show (if j = i then some d else c.disk j).isSome = true
  split
  · rfl
  · exact hj

theorem keeps_transfer (c : Ctx) (i : BitVec 3) (r : Bool) (x : Dasd.S × Bool × Dasd.Io) : Keeps c (transfer c i r x) := by
  refine ⟨rfl, rfl, fun j hj => ?_⟩
  show (if j = i then some x.1 else c.disk j).isSome = true
  split
  · rfl
  · exact hj

theorem good_selDrive (c : Ctx) (i : BitVec 3) (d : Dasd.S) : Good (Keeps c) (selDrive c i d) := by
  unfold selDrive
  split
  · exact (good_unset _ _ _).bind fun r _ => keeps_transfer c i true r
  · split
    · exact (good_ofRes _).bind fun r _ => keeps_transfer c i false r
    · exact keeps_setDisk c i _

theorem keeps_attention (c : Ctx) (i : BitVec 3) : Keeps c (attention c i) := by
  unfold attention
  split
  · exact ⟨rfl, rfl, fun _ h => h⟩
  · split <;> exact ⟨rfl, rfl, fun _ h => h⟩

theorem good_walkOne (c : Ctx) (i : BitVec 3) : Good (Keeps c) (walkOne c i) := by
  unfold walkOne
  split
  · exact ⟨rfl, rfl, fun _ h => h⟩
  · next d hd =>
    have : Good (Keeps c) (if gated c i then selDrive c i d else .ok (setDisk c i (Dasd.stepDisk d).1)) := by
      split
      · exact good_selDrive c i d
      · exact keeps_setDisk c i _
    exact this.bind fun c' h => h.trans (keeps_attention c' i)

theorem good_walkFrom (l : List (BitVec 3)) (c : Ctx) : Good (Keeps c) (walkFrom c l) := by
  induction l generalizing c with
  | nil => exact ⟨rfl, rfl, fun _ h => h⟩
  | cons i l ih => exact (good_walkOne c i).bind fun c' h => (ih c').imp fun _ k => h.trans k

theorem good_walk (c : Ctx) : Good (Keeps c) (walk c) :=
  (good_walkFrom _ { c with SC := 0#8 }).imp fun _ h => h

/-! ## The microinstruction -/

theorem keeps_aBus (c : Ctx) (w : Word) : Keeps c (aBus c w) := by
  unfold aBus
  split
  all_goals first
    | exact ⟨rfl, rfl, fun _ h => h⟩
    | (split <;> exact ⟨rfl, rfl, fun _ h => h⟩)

/-- The state is sound: the next word is in control storage and the current drive is attached. -/
def Sound (c : Ctx) : Prop := InRos c.WX ∧ CurOk c.cur c.disk

theorem Sound.keeps {c c' : Ctx} (h : Sound c) (k : Keeps c c') : Sound c' :=
  ⟨by rw [k.1]; exact h.1, fun i hi => k.2.2 i (h.2 i (k.2.1 ▸ hi))⟩

theorem good_driveTags {c : Ctx} (h : Sound c) : Good Sound (driveTags c) := by
  unfold driveTags
  split
  · exact h
  · next i hc =>
    have := h.2 i hc
    split
    · next hd => rw [hd] at this; cases this
    · exact (good_ofRes _).bind fun d _ => h.keeps (keeps_setDisk c i d)

theorem good_driveUpdate {c : Ctx} (h : Sound c) : Good Sound (driveUpdate c) := by
  unfold driveUpdate
  split
  · exact h
  · next i hc =>
    have := h.2 i hc
    split
    · next hd => rw [hd] at this; cases this
    · split
      · exact (good_ofRes _).bind fun d _ => h.keeps (keeps_setDisk c i d)
      · exact h

theorem good_dest {c : Ctx} (w : Word) (h : Sound c) : Good Sound (dest c w) := by
  unfold dest
  split
  all_goals first
    | exact h
    | exact ⟨h.1, curOf_ok c c.Alu⟩
    | exact (good_driveTags (c := { c with FT := gateReg c.FT c.Alu w.cn }) h).bind fun _ k => good_driveUpdate k
    | exact good_driveTags (c := { c with FC := gateReg c.FC c.Alu w.cn }) h

theorem sound_flags {c : Ctx} (cs : Nat) (h : Sound c) : Sound (flags c cs) := by
  unfold flags
  split <;> first | exact h | (split <;> exact h)

theorem sound_keepCarry {c : Ctx} (cc : Nat) (h : Sound c) : Sound (keepCarry c cc) := by
  unfold keepCarry
  split <;> exact h

theorem next_inRos (c : Ctx) (w : Word) (hn : w.cn < 4096) : InRos (next c w) := by
  have h1 : InRos ((c.WX &&& 0xf00#16) ||| BitVec.ofNat 16 w.cn) := (InRos.and (by unfold InRos; decide)).or (inRos_of_lt hn)
  have h2 : InRos (nextHi c w) := by
    unfold nextHi
    split
    · refine InRos.or (InRos.and (by unfold InRos; decide)) (inRos_shift ?_)
      exact Nat.lt_of_le_of_lt Nat.and_le_right (by decide)
    · split
      · exact h1.or (by unfold InRos; decide)
      · exact h1
  unfold next
  split
  · exact h2.or (by unfold InRos; decide)
  · exact h2

theorem byte_inRos (x : B) : InRos (x.setWidth 16) := by
  unfold InRos
  apply BitVec.eq_of_getLsbD_eq
  intro i hi
  rw [BitVec.getLsbD_and, BitVec.getLsbD_setWidth]
  by_cases h8 : i < 8
  · have : ∀ i : Fin 16, i.val < 8 → (0xf000#16 : T).getLsbD i.val = false := by decide
    rw [this ⟨i, hi⟩ h8]
    simp
  · rw [BitVec.getLsbD_of_ge _ i (by omega)]
    simp

theorem good_exec {c : Ctx} (w : Word) (hn : w.cn < 4096) (h : Sound c) : Good Sound (exec w c) := by
  unfold exec
  have ha : Sound (aBus { c with Bbus := bBus c w } w) :=
    Sound.keeps (c := { c with Bbus := bBus c w }) h (keeps_aBus _ w)
  have hc : Sound (compute (aBus { c with Bbus := bBus c w } w) w (next c w)) := by
    refine ⟨?_, ha.2⟩
    show InRos (if w.cl = 6 then _ else _)
    split
    · exact (InRos.and (by unfold InRos; decide)).or (byte_inRos _)
    · exact next_inRos c w hn
  exact (good_dest w hc).bind fun c' k => sound_flags _ (sound_keepCarry _ k)

theorem ros_bound (n : Nat) : (ros n).cn < 4096 := by
  unfold ros decode
  exact Nat.lt_of_lt_of_le (Nat.mod_lt _ (by decide)) (by decide)

/-- A microinstruction. -/
theorem good_step {c : Ctx} (h : Sound c) : Good Sound (step ros c) := by
  unfold step
  refine (good_walk c).bind fun c' k => ?_
  have hs := h.keeps k
  rw [if_pos hs.1.lt]
  exact good_exec _ (ros_bound _) hs

/-! ## The channel's cycles -/

/-- A cycle leaves the drives alone, and the address of the next word unless it is a reset. -/
def Still1 (c c' : Ctx) : Prop := c'.WX = c.WX ∧ c'.cur = c.cur ∧ c'.disk = c.disk

theorem dev_keeps (bo : T) (s : IF) :
    ((dev bo s).c.WX = s.c.WX ∨ (dev bo s).c.WX = 0#16) ∧ (dev bo s).c.cur = s.c.cur ∧ (dev bo s).c.disk = s.c.disk := by
  have tr : ∀ {a b c : Ctx}, Still1 a b → Still1 b c → Still1 a c :=
    fun h k => ⟨k.1.trans h.1, k.2.1.trans h.2.1, k.2.2.trans h.2.2⟩
  have rr : ∀ {a : Ctx}, Still1 a a := ⟨rfl, rfl, rfl⟩
  have h1 : ∀ s : IF, Still1 s.c (ifAsk s).c := by intro s; unfold ifAsk; split <;> exact ⟨rfl, rfl, rfl⟩
  have h2 : ∀ s : IF, Still1 s.c (ifAdrIn s).c := by intro s; unfold ifAdrIn; split <;> exact ⟨rfl, rfl, rfl⟩
  have h3 : ∀ s : IF, Still1 s.c (ifSta s).c := by intro s; unfold ifSta; split <;> exact ⟨rfl, rfl, rfl⟩
  have h4 : ∀ s : IF, Still1 s.c (ifSel s).c := fun s => ⟨rfl, rfl, rfl⟩
  have h5 : ∀ s : IF, Still1 s.c (ifAddr bo s).c := by
    intro s; unfold ifAddr; split
    · dsimp only
      split <;> (split <;> first | exact ⟨rfl, rfl, rfl⟩ | (split <;> exact ⟨rfl, rfl, rfl⟩))
    · exact ⟨rfl, rfl, rfl⟩
  have h6 : ∀ s : IF, Still1 s.c (ifDrop s).c := by intro s; unfold ifDrop; split <;> exact ⟨rfl, rfl, rfl⟩
  have h7 : ∀ s : IF, Still1 s.c (ifOprIn s).c := by intro s; unfold ifOprIn; split <;> exact ⟨rfl, rfl, rfl⟩
  have h8 : ∀ s : IF, Still1 s.c (ifPoll s).c := by intro s; unfold ifPoll; split <;> exact ⟨rfl, rfl, rfl⟩
  have h9 : ∀ s : IF, Still1 s.c (ifReq s).c := by intro s; unfold ifReq; split <;> exact ⟨rfl, rfl, rfl⟩
  have h10 : ∀ s : IF, Still1 s.c (ifEnd s).c := by intro s; unfold ifEnd; split <;> exact ⟨rfl, rfl, rfl⟩
  have d1 : ∀ s : IF, Still1 s.c (data1 bo s).c := by
    intro s; unfold data1; dsimp only; split <;> exact ⟨rfl, rfl, rfl⟩
  have d2 : ∀ s : IF, Still1 s.c (data2 s).c := by
    intro s; unfold data2; dsimp only; repeat' split
    all_goals exact ⟨rfl, rfl, rfl⟩
  have d3 : ∀ s : IF, Still1 s.c (data3 s).c := by intro s; unfold data3; split <;> exact ⟨rfl, rfl, rfl⟩
  have h11 : ∀ s : IF, Still1 s.c (ifData bo s).c := by
    intro s; unfold ifData; split
    · exact tr (d1 _) (tr (d2 _) (d3 _))
    · exact rr
  unfold dev
  split
  · exact ⟨.inr rfl, rfl, rfl⟩
  · have := tr (h1 { s with c := { s.c with bus_out := bo.setWidth 8, tags := s.tags } }) (tr (h2 _) (tr (h3 _) (tr (h4 _)
      (tr (h5 _) (tr (h6 _) (tr (h7 _) (tr (h8 _) (tr (h9 _) (tr (h10 _) (h11 _))))))))))
    exact ⟨.inl this.1, this.2.1, this.2.2⟩

/-- Any schedule. -/
theorem good_run (es : List Ev) (s : Line) (h : Sound s.c) : Good (fun s => Sound s.c) (s.run es) := by
  induction es generalizing s with
  | nil => exact h
  | cons e es ih =>
    refine Good.bind (P := fun s => Sound s.c) ?_ fun s' k => ih s' k
    cases e with
    | micro => exact (good_step h).bind fun c' k => k
    | bus out bo =>
      obtain ⟨h1, h2, h3⟩ := dev_keeps bo ⟨s.c, s.tin ||| (out &&& outTags), s.bin⟩
      refine ⟨?_, ?_⟩
      · show InRos (dev bo _).c.WX
        rcases h1 with h1 | h1 <;> rw [h1]
        · exact h.1
        · unfold InRos; decide
      · show CurOk (dev bo _).c.cur (dev bo _).c.disk
        rw [h2, h3]
        exact h.2

end Verif.Ctl2841
