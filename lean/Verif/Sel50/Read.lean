import Verif.Sel50.Model

/-!
# Reading on a selector channel

A specification of what becomes of the bytes a device sends, as a run of events of the device and of
the microprogram, and the invariant that bytes are neither lost nor duplicated nor reordered.
-/

namespace Verif.Sel50

/-- The bytes of a word which are marked as read, in the order in which they were read: from left to
right, or from right to left when reading backward. Byte 3 is the leftmost. -/
def marked (back : Bool) (w : W) (m : BitVec 4) : List B :=
  ((if back then [0, 1, 2, 3] else [3, 2, 1, 0]).filter (fun k => m.getLsbD k)).map (getB w)

/-- A channel reading, and what has become of the bytes. -/
structure Rd where
  c : Chan
  /-- the word of local storage in which a word waits to be stored -/
  ls : W := 0
  /-- the microprogram has stored it and is about to end its routine -/
  done : Bool := false
  /-- all bytes the device has sent and the channel has accepted -/
  taken : List B := []
  /-- all bytes that went to main storage -/
  stored : List B := []

/-- What happens. `cycle`: a cycle of the machine, `n` the interface, `ga` and `gw` what the rest of
the machine shows when requests are accepted and when the channel works. `gate`: the microinstruction
`CH>` of routine `.LSRD`. `store`: the microinstruction of routine `.RST0` which puts the marked bytes
into storage. `count`: the microinstruction `LSWDTEST`. `stop`: a protection check. -/
inductive RdEv where
  | cycle (n : In) (ga gw : Glob)
  | gate (aob : W)
  | store
  | count (aob : W)
  | stop

/-- Channel `i` as it stands when its work begins. -/
def began (i : Nat) (ga : Glob) (c : Chan) : Chan := (accept i { c := c, g := ga }).c

/-- The channel after a cycle. -/
def cycled (i : Nat) (n : In) (ga gw : Glob) (c : Chan) : Chan :=
  (work i n { c := began i ga c, g := gw }).c

/-- The channel accepts a byte: service in is answered with service out. -/
def accepts (n : In) (c c' : Chan) : Bool := n.t.srvIn && n.t.oprIn && !c.tags.srv && c'.tags.srv

def back (c : Chan) : Bool := c.op == 6

def Rd.step (i : Nat) (s : Rd) : RdEv → Rd
  | .cycle n ga gw =>
    { s with c := cycled i n ga gw s.c,
             taken := s.taken ++ (if accepts n s.c (cycled i n ga gw s.c) then [n.data] else []),
             done := s.done && !gw.last }
  | .gate aob => { s with c := gate aob s.c, ls := if s.c.chpos = 0x200 then s.c.bReg else s.ls }
  | .store => { s with stored := s.stored ++ marked (back s.c) s.ls s.c.cli, done := true }
  | .count aob => { s with c := lastWord aob s.c }
  | .stop => { s with c := stop s.c }

/-- Reading without data chaining: no CCW is being fetched, no unit selected. -/
def Reading (c : Chan) : Prop :=
  (c.op = 4 ∨ c.op = 6) ∧ c.cd = false ∧ c.polling = false ∧
    (c.chpos = 0 ∨ c.chpos = 0x200 ∨ c.chpos = 0x10 ∨ c.chpos = 0x04)

/-- Byte position and end position. -/
def pos (gp : B) : Nat := (gp >>> 5 &&& 3).toNat
def last (gp : B) : Nat := (gp >>> 3 &&& 3).toNat

/-- In the last word the end lies ahead of the position, in the direction of reading. -/
def Ahead (bk : Bool) (gp : B) : Prop :=
  gp &&& 4 ≠ 0 → if bk then last gp = 3 ∨ last gp < pos gp else last gp = 0 ∨ pos gp < last gp

instance (bk gp) : Decidable (Ahead bk gp) := by unfold Ahead; infer_instance

/-- What is asked of the environment. The device does not present data and status at once, and does
not touch the lines of the channel. The microprogram runs `.RST0` when the channel is at that position,
stores once and before the last cycle. The count it computes agrees with the byte position. -/
def RdEv.Ok (i : Nat) (s : Rd) : RdEv → Prop
  | .cycle n ga gw =>
    Reading (began i ga s.c) ∧ n.t.srv = s.c.tags.srv ∧ (n.t.srvIn && n.t.staIn) = false ∧
      (gw.last → (began i ga s.c).chpos = 0x10 → s.done)
  | .gate _ => Reading s.c
  | .store => s.c.chpos = 0x10 ∧ s.done = false
  | .count aob => Reading s.c ∧ Ahead (back s.c) (lastWord aob s.c).gp
  | .stop => True

/-- A run of events. -/
inductive Rd.Run (i : Nat) : Rd → Rd → Prop where
  | refl (s) : Rd.Run i s s
  | step {s t} (e : RdEv) : Rd.Run i s t → e.Ok i t → Rd.Run i s (t.step i e)

/-- The bytes still on their way. -/
def Rd.pending (s : Rd) : List B :=
  (if s.c.lsFull && !s.done then marked (back s.c) s.ls s.c.cli else []) ++
  (if s.c.bFull then marked (back s.c) s.c.bReg s.c.cbi else []) ++
  marked (back s.c) s.c.cReg s.c.cci

/-! ### The invariant -/

/-- Marks lie behind the position. -/
def Behind (bk : Bool) (gp : B) (m : BitVec 4) : Prop :=
  ∀ k, k < 4 → m.getLsbD k = true → if bk then k < byteNo gp else byteNo gp < k

structure CInv (ls : W) (done : Bool) (c : Chan) : Prop where
  op : c.op = 4 ∨ c.op = 6
  cd : c.cd = false
  rst : c.chpos = 0x10 → c.lsFull = true ∧ c.chreq ≠ 0x80
  req : c.chreq = 0x80 → c.lsFull = true
  don : done = true → c.chpos = 0x10
  lsr : c.chpos = 0x200 → (c.bFull = true ∧ c.lsFull = false ∧ c.cli = c.cbi) ∨
    (c.lsFull = true ∧ c.bFull = false ∧ ls = c.bReg)
  ord : c.cFull = false → Behind (back c) c.gp c.cci
  ahd : c.ifStop = false → Ahead (back c) c.gp

structure Rd.Inv (s : Rd) : Prop where
  ci : CInv s.ls s.done s.c
  eq : s.taken = s.stored ++ s.pending

/-! ### Bytes of words -/

theorem ff_bit (x : Nat) : (0xff#32).getLsbD x = decide (x < 8) := by
  by_cases h : x < 8
  · have hx' : x = 0 ∨ x = 1 ∨ x = 2 ∨ x = 3 ∨ x = 4 ∨ x = 5 ∨ x = 6 ∨ x = 7 := by omega
    rcases hx' with rfl | rfl | rfl | rfl | rfl | rfl | rfl | rfl <;> decide
  · have h2 : (0xff#32) = (0xff#8).setWidth 32 := by decide
    rw [h2, BitVec.getLsbD_setWidth, BitVec.getLsbD_of_ge _ _ (by omega)]
    simp [h]

theorem getB_putB {w : W} {b : B} {k j : Nat} (hk : k < 4) (hj : j < 4) :
    getB (putB w k b) j = if j = k then b else getB w j := by
  apply BitVec.eq_of_getLsbD_eq
  intro x hx
  unfold getB putB
  rw [BitVec.getLsbD_setWidth, BitVec.getLsbD_ushiftRight, BitVec.getLsbD_or, BitVec.getLsbD_and,
    BitVec.getLsbD_not, BitVec.getLsbD_shiftLeft, BitVec.getLsbD_shiftLeft, ff_bit,
    BitVec.getLsbD_setWidth]
  by_cases h : j = k
  · subst h
    rw [if_pos rfl, Nat.add_sub_cancel_left]
    have h1 : 8 * j + x < 32 := by omega
    have h2 : ¬ (8 * j + x < 8 * j) := by omega
    have h3 : x < 32 := by omega
    simp [h1, h2, h3, hx]
  · rw [if_neg h, BitVec.getLsbD_setWidth, BitVec.getLsbD_ushiftRight]
    have h1 : 8 * j + x < 32 := by omega
    by_cases h2 : 8 * j + x < 8 * k
    · simp [h1, h2, hx]
    · have h3 : ¬ (8 * j + x - 8 * k < 8) := by omega
      have h4 : b.getLsbD (8 * j + x - 8 * k) = false := BitVec.getLsbD_of_ge _ _ (by omega)
      simp [h1, h2, h3, h4, hx]

theorem byteNo_lt (gp : B) : byteNo gp < 4 := by unfold byteNo; omega

theorem mask_lemma : ∀ (k : Fin 4) (m : BitVec 4) (j : Fin 4),
    (m ||| (1#4 <<< k.val)).getLsbD j.val = (m.getLsbD j.val || decide (j = k)) := by decide

/-- One byte of a word, if marked. -/
def one (w : W) (m : BitVec 4) (k : Nat) : List B := if m.getLsbD k then [getB w k] else []

theorem marked_eq (bk : Bool) (w : W) (m : BitVec 4) : marked bk w m =
    if bk then one w m 0 ++ one w m 1 ++ one w m 2 ++ one w m 3
    else one w m 3 ++ one w m 2 ++ one w m 1 ++ one w m 0 := by
  unfold marked one
  cases bk <;> cases h0 : m.getLsbD 0 <;> cases h1 : m.getLsbD 1 <;> cases h2 : m.getLsbD 2 <;>
    cases h3 : m.getLsbD 3 <;>
    simp only [List.filter, h0, h1, h2, h3, if_true, if_false, Bool.false_eq_true, List.map_cons,
      List.map_nil, List.append_nil, List.nil_append, List.cons_append]

theorem one_put (w : W) (m : BitVec 4) (b : B) {k j : Nat} (hk : k < 4) (hj : j < 4) :
    one (putB w k b) (m ||| 1#4 <<< k) j = if j = k then [b] else one w m j := by
  unfold one
  have hm : (m ||| 1#4 <<< k).getLsbD j = (m.getLsbD j || decide (j = k)) := by
    have := mask_lemma ⟨k, hk⟩ m ⟨j, hj⟩
    simpa only [Fin.mk.injEq] using this
  rw [hm, getB_putB hk hj]
  by_cases h : j = k
  · subst h; simp
  · simp [h]

theorem one_none (w : W) (m : BitVec 4) (k : Nat) (h : m.getLsbD k = false) : one w m k = [] := by
  unfold one; rw [h]; rfl

theorem marked_put (bk : Bool) (gp : B) (w : W) (m : BitVec 4) (b : B)
    (h : Behind bk gp m) :
    marked bk (putB w (byteNo gp) b) (m ||| 1#4 <<< byteNo gp) = marked bk w m ++ [b] := by
  have hk := byteNo_lt gp
  unfold Behind at h
  generalize byteNo gp = k at h hk ⊢
  have e0 := fun hh : ¬ (if bk = true then 0 < k else k < 0) =>
    one_none w m 0 (by cases hb : m.getLsbD 0 with
      | false => rfl
      | true => exact absurd (h 0 (by omega) hb) hh)
  have e1 := fun hh : ¬ (if bk = true then 1 < k else k < 1) =>
    one_none w m 1 (by cases hb : m.getLsbD 1 with
      | false => rfl
      | true => exact absurd (h 1 (by omega) hb) hh)
  have e2 := fun hh : ¬ (if bk = true then 2 < k else k < 2) =>
    one_none w m 2 (by cases hb : m.getLsbD 2 with
      | false => rfl
      | true => exact absurd (h 2 (by omega) hb) hh)
  have e3 := fun hh : ¬ (if bk = true then 3 < k else k < 3) =>
    one_none w m 3 (by cases hb : m.getLsbD 3 with
      | false => rfl
      | true => exact absurd (h 3 (by omega) hb) hh)
  rw [marked_eq, marked_eq, one_put w m b hk (by omega : 0 < 4), one_put w m b hk (by omega : 1 < 4),
    one_put w m b hk (by omega : 2 < 4), one_put w m b hk (by omega : 3 < 4)]
  have hk' : k = 0 ∨ k = 1 ∨ k = 2 ∨ k = 3 := by omega
  cases bk <;> rcases hk' with rfl | rfl | rfl | rfl <;> simp at e0 e1 e2 e3 ⊢ <;>
    simp [e0, e1, e2, e3]

theorem marked_zero (bk : Bool) (w : W) : marked bk w 0 = [] := by
  unfold marked; cases bk <;> simp [List.filter]

end Verif.Sel50
