import Verif.Dasd.SeekEx
/-!
# Reading a track (C91)

The specification says what a revolution of the disk presents to the control unit: the home address and the records of
the track, each field led by a mark byte and followed by two check bytes.
-/
namespace Verif.Dasd
open Verif.Card (Res look)

namespace Spec

/-- The bytes of a list at places 0, 2, 4 ... -/
def even : List Nat → List Nat
  | [] => []
  | [a] => [a]
  | a :: _ :: r => a :: even r

/-- The bytes at places 1, 3, 5 ... -/
def odd (l : List Nat) : List Nat := even l.tail

/-- A check byte: exclusive or, started with all ones. -/
def sum (l : List Nat) : Nat := l.foldl (· ^^^ ·) 255

/-- How a drive frames its fields: the byte ahead of a home address, of record zero, of the other records, of a key and of
data, whether that byte comes with the address mark line, and what follows the check bytes. -/
structure Frame where
  ha : Nat
  r0 : Nat
  rn : Nat
  key : Nat
  data : Nat
  am : Bool
  tail : List Nat
deriving DecidableEq

/-- The 2314 has distinct marks, the others one sync byte. -/
def frame (t : DiskType) : Frame := if t.name = "2314" then ⟨5, 3, 6, 2, 1, true, [1, 255]⟩ else ⟨6, 6, 6, 6, 6, false, []⟩

/-- A field without flag byte. -/
def plain (f : Frame) (mark : Nat) (bs : List Nat) : List (Nat × Bool) :=
  (mark, f.am) :: (bs ++ [sum (even bs), sum (odd bs)] ++ f.tail).map (·, false)

/-- A field that starts with a flag byte; the check bytes alternate from the byte after the flag. -/
def flagged (f : Frame) (mark : Nat) (bs : List Nat) : List (Nat × Bool) :=
  (mark, f.am) :: (bs ++ [sum (odd bs), sum (even bs)] ++ f.tail).map (·, false)

/-- Key and data of a record; no key field when there is no key. -/
def body (f : Frame) (x : Rec) : List (Nat × Bool) :=
  (if x.key = [] then [] else plain f f.key x.key) ++ plain f f.data x.data

/-- The flag byte of a record: bit 0 alternates from record to record, bit 1 says that the record overflows to the next
track, which the image keeps as the top bit of the cylinder number. -/
def flag (n : Nat) (x : Rec) : Nat := (if 32768 ≤ x.cyl then 0x40 else 0) + (if n % 2 = 1 then 0x80 else 0)

/-- The record as the count field shows it: without the overflow bit. -/
def shown (x : Rec) : Rec := { x with cyl := x.cyl % 32768 }

/-- The records after record zero, numbered from `n`. -/
def others (f : Frame) : Nat → List Rec → List (Nat × Bool)
  | _, [] => []
  | n, x :: xs => flagged f f.rn (flag n x :: count (shown x)) ++ body f x ++ others f (n + 1) xs

/-- What one revolution presents. -/
def stream (f : Frame) (cyl hd : Nat) (z : Rec) (xs : List Rec) : List (Nat × Bool) :=
  flagged f f.ha (home cyl hd) ++ flagged f f.r0 (0 :: count z) ++ body f z ++ others f 1 xs

/-- The byte times a field takes with the gap ahead of it. -/
def fieldTime (f : Frame) (gap n : Nat) : Nat := gap + 1 + n + 2 + f.tail.length

def bodyTime (t : DiskType) (x : Rec) : Nat :=
  (if x.key = [] then 0 else fieldTime (frame t) t.g2 x.key.length) + fieldTime (frame t) t.g2 x.data.length

def othersTime (t : DiskType) : List Rec → Nat
  | [] => t.g2 + 1
  | x :: xs => fieldTime (frame t) t.g2 9 + bodyTime t x + othersTime t xs

/-- The byte times from the index to the end of the last record. -/
def time (t : DiskType) (z : Rec) (xs : List Rec) : Nat :=
  fieldTime (frame t) t.g4 5 + fieldTime (frame t) t.g1 9 + bodyTime t z + othersTime t xs

/-- A record the count field can describe. -/
structure Fits (x : Rec) : Prop where
  cyl : x.cyl < 65536
  hd : x.hd < 65536
  live : ¬ (x.cyl = 65535 ∧ x.hd = 65535)
  key : x.key.length < 256
  data : x.data.length < 65536

end Spec

/-! ### Byte times -/

/-- Calls of `dasd_read_byte`, the `k`-th one with the control unit's registers `io k`: the bytes handed over, each with the
address mark line. -/
def calls (io : Nat → Io) : Nat → S → Res (S × List (Nat × Bool))
  | 0, s => .ok (s, [])
  | n + 1, s => (readByte s (io 0)).bind fun x => (calls (fun k => io (k + 1)) n x.1).bind fun y =>
    .ok (y.1, (if x.2.1 then [(x.2.2.data, x.2.2.am)] else []) ++ y.2)

/-- One byte time. -/
def tick (io : Io) (s : S) : Res (S × List (Nat × Bool)) :=
  (rdTick (rdIx s) (if s.cpos ≥ s.ty.bpt + 1 then { io with am := false, ix := true } else { io with am := false })).bind fun x =>
    .ok (x.1, if x.2.1 then [(x.2.2.data, x.2.2.am)] else [])

def ticks (io : Nat → Io) : Nat → S → Res (S × List (Nat × Bool))
  | 0, s => .ok (s, [])
  | n + 1, s => (tick (io 0) s).bind fun x => (ticks (fun k => io (k + 1)) n x.1).bind fun y => .ok (y.1, x.2 ++ y.2)

/-- `s` comes to `s'` in `n` byte times, handing over `l`, whatever the registers hold. -/
def Goes (n : Nat) (s s' : S) (l : List (Nat × Bool)) : Prop := ∀ io, ticks io n s = .ok (s', l)

theorem Goes.refl (s : S) : Goes 0 s s [] := fun _ => rfl

theorem ticks_add (a b : Nat) : ∀ (io : Nat → Io) (s : S), ticks io (a + b) s =
    (ticks io a s).bind fun x => (ticks (fun k => io (k + a)) b x.1).bind fun y => .ok (y.1, x.2 ++ y.2) := by
  induction a with
  | zero =>
    intro io s
    rw [Nat.zero_add]
    show _ = (ticks io b s).bind fun y => .ok (y.1, [] ++ y.2)
    cases ticks io b s <;> rfl
  | succ a ih =>
    intro io s
    rw [Nat.succ_add]
    show (tick (io 0) s).bind _ = ((tick (io 0) s).bind _).bind _
    cases tick (io 0) s with
    | ok x =>
      simp only [Res.bind]
      rw [ih]
      cases ticks (fun k => io (k + 1)) a x.1 with
      | ok y =>
        simp only [Res.bind]
        rw [show (fun k => io (k + a + 1)) = (fun k => io (k + (a + 1))) from rfl]
        cases ticks (fun k => io (k + (a + 1))) b y.1 with
        | ok z => simp [List.append_assoc]
        | oob => rfl
        | fuel => rfl
      | oob => rfl
      | fuel => rfl
    | oob => rfl
    | fuel => rfl

theorem Goes.trans {a b n : Nat} {s t u : S} {l m k : List (Nat × Bool)} (h : Goes a s t l) (g : Goes b t u m) (hn : n = a + b)
    (hk : k = l ++ m) : Goes n s u k := by
  intro io
  rw [hn, ticks_add, h io, bk, g, bk, hk]

theorem Goes.one {s t : S} {l : List (Nat × Bool)} (h : ∀ io, tick io s = .ok (t, l)) : Goes 1 s t l := by
  intro io
  show (tick (io 0) s).bind _ = _
  rw [h, bk]
  show Res.ok (t, l ++ []) = _
  rw [List.append_nil]

/-! ### Fields -/

/-- A drive amid a read. -/
def st (s : S) (p : Pos) (c t r pos k0 k1 rc kl dl : Nat) : S :=
  { s with state := p, count := c, tpos := t, rpos := r, cpos := pos, ck0 := k0, ck1 := k1, rcnt := rc, klen := kl, dlen := dl,
           ams := false, step := 0, dirty := true }

/-- The two check registers after the bytes `vs`, the first one at place `c`. -/
def ckRun : Nat → Nat → Nat → List Nat → Nat × Nat
  | _, a, b, [] => (a, b)
  | c, a, b, v :: vs => if c % 2 = 0 then ckRun (c + 1) (a ^^^ v) b vs else ckRun (c + 1) a (b ^^^ v) vs

theorem ckRun_eq : ∀ (vs : List Nat) (c a b : Nat), ckRun c a b vs =
    if c % 2 = 0 then ((Spec.even vs).foldl (· ^^^ ·) a, (Spec.odd vs).foldl (· ^^^ ·) b)
    else ((Spec.odd vs).foldl (· ^^^ ·) a, (Spec.even vs).foldl (· ^^^ ·) b) := by
  intro vs
  induction vs with
  | nil => intro c a b; simp [ckRun, Spec.even, Spec.odd]
  | cons v vs ih =>
    intro c a b
    have e1 : Spec.even (v :: vs) = v :: Spec.odd vs := by cases vs <;> rfl
    have e2 : Spec.odd (v :: vs) = Spec.even vs := rfl
    rw [ckRun, e1, e2]
    by_cases hc : c % 2 = 0
    · rw [if_pos hc, ih, if_neg (by omega), if_pos hc]; rfl
    · rw [if_neg hc, ih, if_pos (by omega), if_neg hc]; rfl

theorem st_ix (s : S) (p : Pos) (c t r pos k0 k1 rc kl dl : Nat) (h : pos ≤ s.ty.bpt) :
    rdIx (st s p c t r pos k0 k1 rc kl dl) = st s p c t r pos k0 k1 rc kl dl := by
  unfold rdIx
  rw [if_neg (by show ¬ pos ≥ s.ty.bpt + 1; omega)]
  rfl

theorem tick_base (io : Io) (s : S) (p : Pos) (c t r pos k0 k1 rc kl dl : Nat) (hp : pos ≤ s.ty.bpt)
    (hb : s.ty.bpt < 60000) (hc : c < 65535) : tick io (st s p c t r pos k0 k1 rc kl dl) =
    ((rdSwitch (st s p (c + 1) t r (pos + 1) k0 k1 rc kl dl) c (t + s.tstart) { io with am := false }).bind
      fun x => .ok (rdOut x)).bind fun x => .ok (x.1, if x.2.1 then [(x.2.2.data, x.2.2.am)] else []) := by
  unfold tick rdTick
  rw [st_ix _ _ _ _ _ _ _ _ _ _ _ hp, if_neg (by show ¬ pos ≥ s.ty.bpt + 1; omega)]
  have e : { st s p c t r pos k0 k1 rc kl dl with
      cpos := u16 ((st s p c t r pos k0 k1 rc kl dl).cpos + 1),
      count := u16 ((st s p c t r pos k0 k1 rc kl dl).count + 1), dirty := true } =
      st s p (c + 1) t r (pos + 1) k0 k1 rc kl dl := by
    have e1 : u16 (pos + 1) = pos + 1 := Nat.mod_eq_of_lt (by omega)
    have e2 : u16 (c + 1) = c + 1 := Nat.mod_eq_of_lt (by omega)
    show { st s p c t r pos k0 k1 rc kl dl with cpos := u16 (pos + 1), count := u16 (c + 1), dirty := true } = _
    rw [e1, e2]; rfl
  rw [e]
  rfl

/-- A byte time in the middle of a track that hands a byte over. -/
theorem tick_give (io : Io) (s u : S) (p : Pos) (c t r pos k0 k1 rc kl dl v : Nat) (m : Bool) (hp : pos ≤ s.ty.bpt)
    (hb : s.ty.bpt < 60000) (hc : c < 65535)
    (h : ∀ io : Io, io.am = false → rdSwitch (st s p (c + 1) t r (pos + 1) k0 k1 rc kl dl) c (t + s.tstart) io =
      .ok (u, none, ⟨v, m, io.ix⟩)) (hu : u.cpos ≤ u.ty.bpt) (ha : u.ams = false) :
    tick io (st s p c t r pos k0 k1 rc kl dl) = .ok (u, [(v, m)]) := by
  rw [tick_base _ _ _ _ _ _ _ _ _ _ _ _ hp hb hc, h _ rfl, bk, bk]
  have e : wrap u ⟨v, m, io.ix⟩ = (u, ⟨v, m, io.ix⟩) := by
    unfold wrap
    rw [if_neg (by omega)]
  simp only [rdOut, e, ha]
  rfl

/-- A byte time in the middle of a track that hands nothing over. -/
theorem tick_quiet (io : Io) (s u : S) (p : Pos) (c t r pos k0 k1 rc kl dl : Nat) (hp : pos ≤ s.ty.bpt)
    (hb : s.ty.bpt < 60000) (hc : c < 65535)
    (h : ∀ io : Io, io.am = false → ∃ io', rdSwitch (st s p (c + 1) t r (pos + 1) k0 k1 rc kl dl) c (t + s.tstart) io =
      .ok (u, some false, io')) :
    tick io (st s p c t r pos k0 k1 rc kl dl) = .ok (u, []) := by
  obtain ⟨io', e⟩ := h { io with am := false } rfl
  rw [tick_base _ _ _ _ _ _ _ _ _ _ _ _ hp hb hc, e, bk, bk]
  rfl

/-- Waiting in a gap: as long as the switch stays silent. -/
theorem wait (s : S) (p : Pos) (t r k0 k1 rc kl dl g : Nat) (hb : s.ty.bpt < 60000) (hg : g < 60000)
    (q : ∀ c pos, c < g → ∀ io : Io, io.am = false →
      ∃ io', rdSwitch (st s p (c + 1) t r (pos + 1) k0 k1 rc kl dl) c (t + s.tstart) io =
        .ok (st s p (c + 1) t r (pos + 1) k0 k1 rc kl dl, some false, io')) :
    ∀ (n c pos : Nat), c + n = g → pos + n ≤ s.ty.bpt + 1 →
      Goes n (st s p c t r pos k0 k1 rc kl dl) (st s p g t r (pos + n) k0 k1 rc kl dl) [] := by
  intro n
  induction n with
  | zero => intro c pos hc hp; rw [← hc]; exact Goes.refl _
  | succ n ih =>
    intro c pos hc hp
    have h1 : Goes 1 (st s p c t r pos k0 k1 rc kl dl) (st s p (c + 1) t r (pos + 1) k0 k1 rc kl dl) [] :=
      Goes.one fun io => tick_quiet io s _ p c t r pos k0 k1 rc kl dl (by omega) hb (by omega) (q c pos (by omega))
    have h2 := ih (c + 1) (pos + 1) (by omega) (by omega)
    have e : pos + (n + 1) = pos + 1 + n := by omega
    rw [e]
    exact h1.trans h2 (by omega) rfl

/-- Handing over the bytes of a field. -/
theorem run (s : S) (p : Pos) (r rc kl dl off hi : Nat) (hb : s.ty.bpt < 60000) (hh : hi < 66000) (Inv : Nat → Nat → Prop)
    (inv : ∀ c t, Inv c t → Inv (c + 1) (t + 1))
    (q : ∀ c t pos k0 k1 v, c < hi → t < 65535 → Inv c t → getB s (t + s.tstart) = .ok v → ∀ io : Io, io.am = false →
      rdSwitch (st s p (c + 1) t r (pos + 1) k0 k1 rc kl dl) c (t + s.tstart) io =
        .ok (st s p (c + 1) (t + 1) r (pos + 1) (ckRun (c + off) k0 k1 [v]).1 (ckRun (c + off) k0 k1 [v]).2 rc kl dl, none,
          ⟨v, false, io.ix⟩)) (buf : List Nat) (hbuf : s.cbuf = some buf) :
    ∀ (vs rest : List Nat) (c t pos k0 k1 : Nat), buf.drop (t + s.tstart) = vs ++ rest → c + vs.length ≤ hi → c + vs.length ≤ 65535 →
      t + vs.length < 65536 → Inv c t → pos + vs.length ≤ s.ty.bpt →
      Goes vs.length (st s p c t r pos k0 k1 rc kl dl)
        (st s p (c + vs.length) (t + vs.length) r (pos + vs.length) (ckRun (c + off) k0 k1 vs).1 (ckRun (c + off) k0 k1 vs).2 rc kl dl)
        (vs.map (·, false)) := by
  intro vs
  induction vs with
  | nil => intro rest c t pos k0 k1 _ _ _ _ _ _; exact Goes.refl _
  | cons v vs ih =>
    intro rest c t pos k0 k1 hd hc hc2 ht hi hp
    simp only [List.length_cons] at hc hc2 ht hp
    have hg : getB s (t + s.tstart) = .ok v := by
      unfold getB
      rw [hbuf]
      have : buf[t + s.tstart]? = some v := by
        rw [← Nat.add_zero (t + s.tstart), ← List.getElem?_drop, hd]; rfl
      simp only [this]; rfl
    have h1 : Goes 1 _ _ _ := Goes.one fun io => tick_give io s _ p c t r pos k0 k1 rc kl dl v false (by omega) hb (by omega)
      (q c t pos k0 k1 v (by omega) (by omega) hi hg) (by show pos + 1 ≤ s.ty.bpt; omega) rfl
    have h2 := ih rest (c + 1) (t + 1) (pos + 1) (ckRun (c + off) k0 k1 [v]).1 (ckRun (c + off) k0 k1 [v]).2
      (by rw [show t + 1 + s.tstart = (t + s.tstart) + 1 by omega, ← List.drop_drop, hd]; rfl)
      (by omega) (by omega) (by omega) (inv _ _ hi) (by omega)
    have e : ckRun (c + off) k0 k1 (v :: vs) =
        ckRun (c + 1 + off) (ckRun (c + off) k0 k1 [v]).1 (ckRun (c + off) k0 k1 [v]).2 vs := by
      simp only [ckRun]
      rw [show c + 1 + off = c + off + 1 by omega]
      split <;> rfl
    have h3 := h1.trans h2 rfl rfl
    rw [e]
    simp only [List.length_cons]
    rw [show c + (vs.length + 1) = c + 1 + vs.length by omega, show t + (vs.length + 1) = t + 1 + vs.length by omega,
      show pos + (vs.length + 1) = pos + 1 + vs.length by omega, show vs.length + 1 = 1 + vs.length by omega]
    exact h3

/-! ### The parts of a track -/

theorem ckx_run (s : S) (c v : Nat) : ckx s c v = { s with ck0 := (ckRun c s.ck0 s.ck1 [v]).1, ck1 := (ckRun c s.ck0 s.ck1 [v]).2 } := by
  unfold ckx ckRun
  split <;> rfl

theorem st_get (s : S) (p : Pos) (c t r pos k0 k1 rc kl dl i : Nat) : getB (st s p c t r pos k0 k1 rc kl dl) i = getB s i := rfl

theorem data_run (s : S) (r rc kl dl : Nat) (hb : s.ty.bpt < 60000) (hdl : dl < 65536) (buf : List Nat) (hbuf : s.cbuf = some buf)
    (vs rest : List Nat) (t pos k0 k1 : Nat) (hd : buf.drop (t + s.tstart) = vs ++ rest) (hl : vs.length = dl)
    (ht : t + dl < 65536) (hp : pos + dl ≤ s.ty.bpt) :
    Goes dl (st s .data 0 t r pos k0 k1 rc kl dl)
      (st s .data dl (t + dl) r (pos + dl) (ckRun 0 k0 k1 vs).1 (ckRun 0 k0 k1 vs).2 rc kl dl) (vs.map (·, false)) := by
  have := run s .data r rc kl dl 0 dl hb (by omega) (fun _ _ => True) (fun _ _ _ => trivial) (by
    intro c t pos k0 k1 v hc ht _ hg io hio
    show rdData _ _ _ _ = _
    unfold rdData
    rw [if_pos (show c < (st s .data (c + 1) t r (pos + 1) k0 k1 rc kl dl).dlen from hc), st_get, hg, bk, bk]
    have e1 : u16 (t + 1) = t + 1 := Nat.mod_eq_of_lt (by omega)
    rw [ckx_run]
    show Res.ok (amRet { st s .data (c + 1) t r (pos + 1) (ckRun c k0 k1 [v]).1 (ckRun c k0 k1 [v]).2 rc kl dl with tpos := u16 (t + 1) } _) = _
    rw [e1]
    obtain ⟨a, b, d⟩ := io
    simp only at hio
    subst hio
    rfl) buf hbuf vs rest 0 t pos k0 k1 hd (by omega) (by omega) (by omega) trivial (by omega)
  rw [hl, Nat.zero_add] at this
  exact this

theorem key_run (s : S) (r rc kl dl : Nat) (hb : s.ty.bpt < 60000) (hdl : kl < 65536) (buf : List Nat) (hbuf : s.cbuf = some buf)
    (vs rest : List Nat) (t pos k0 k1 : Nat) (hd : buf.drop (t + s.tstart) = vs ++ rest) (hl : vs.length = kl)
    (ht : t + kl < 65536) (hp : pos + kl ≤ s.ty.bpt) :
    Goes kl (st s .key 0 t r pos k0 k1 rc kl dl)
      (st s .key kl (t + kl) r (pos + kl) (ckRun 0 k0 k1 vs).1 (ckRun 0 k0 k1 vs).2 rc kl dl) (vs.map (·, false)) := by
  have := run s .key r rc kl dl 0 kl hb (by omega) (fun _ _ => True) (fun _ _ _ => trivial) (by
    intro c t pos k0 k1 v hc ht _ hg io hio
    show rdKey _ _ _ _ = _
    unfold rdKey
    rw [if_pos (show c < (st s .key (c + 1) t r (pos + 1) k0 k1 rc kl dl).klen from hc), st_get, hg, bk, bk]
    have e1 : u16 (t + 1) = t + 1 := Nat.mod_eq_of_lt (by omega)
    rw [ckx_run]
    show Res.ok (amRet { st s .key (c + 1) t r (pos + 1) (ckRun c k0 k1 [v]).1 (ckRun c k0 k1 [v]).2 rc kl dl with tpos := u16 (t + 1) } _) = _
    rw [e1]
    obtain ⟨a, b, d⟩ := io
    simp only at hio
    subst hio
    rfl) buf hbuf vs rest 0 t pos k0 k1 hd (by omega) (by omega) (by omega) trivial (by omega)
  rw [hl, Nat.zero_add] at this
  exact this

/-- The two bytes a 2314 adds. -/
def tl (s : S) : List Nat := if is14 s then [1, 255] else []

theorem tl_len (s : S) : (tl s).length = if is14 s then 2 else 0 := by unfold tl; split <;> rfl

theorem nlt (a b : Nat) : (a + b < a) = False := by simp

/-- The check bytes at the end of a field, and the bytes a 2314 adds. -/
theorem tail_run (s : S) (p q : Pos) (n t r t' r' pos k0 k1 rc kl dl : Nat) (hb : s.ty.bpt < 60000) (hn : n < 65531) (hp : pos + 4 ≤ s.ty.bpt)
    (ha : ∀ io : Io, io.am = false → rdSwitch (st s p (n + 1) t r (pos + 1) k0 k1 rc kl dl) n (t + s.tstart) io =
      .ok (st s p (n + 1) t r (pos + 1) k0 k1 rc kl dl, none, ⟨k0, false, io.ix⟩))
    (hB : ∀ io : Io, io.am = false → rdSwitch (st s p (n + 2) t r (pos + 2) k0 k1 rc kl dl) (n + 1) (t + s.tstart) io =
      .ok (if is14 s then st s p (n + 2) t' r' (pos + 2) k0 k1 rc kl dl else st s q 0 t' r' (pos + 2) k0 k1 rc kl dl, none, ⟨k1, false, io.ix⟩))
    (hC : ∀ io : Io, io.am = false → rdSwitch (st s p (n + 3) t' r' (pos + 3) k0 k1 rc kl dl) (n + 2) (t' + s.tstart) io =
      .ok (st s p (n + 3) t' r' (pos + 3) k0 k1 rc kl dl, none, ⟨1, false, io.ix⟩))
    (hD : ∀ io : Io, io.am = false → rdSwitch (st s p (n + 4) t' r' (pos + 4) k0 k1 rc kl dl) (n + 3) (t' + s.tstart) io =
      .ok (st s q 0 t' r' (pos + 4) k0 k1 rc kl dl, none, ⟨255, false, io.ix⟩)) :
    Goes (2 + (tl s).length) (st s p n t r pos k0 k1 rc kl dl)
      (st s q 0 t' r' (pos + (2 + (tl s).length)) k0 k1 rc kl dl) (([k0, k1] ++ tl s).map (·, false)) := by
  have h1 : Goes 1 (st s p n t r pos k0 k1 rc kl dl) (st s p (n + 1) t r (pos + 1) k0 k1 rc kl dl) [(k0, false)] :=
    Goes.one fun io => tick_give io s _ p n t r pos k0 k1 rc kl dl k0 false (by omega) hb (by omega) ha
      (by show pos + 1 ≤ s.ty.bpt; omega) rfl
  have h2 : Goes 1 (st s p (n + 1) t r (pos + 1) k0 k1 rc kl dl)
      (if is14 s then st s p (n + 2) t' r' (pos + 2) k0 k1 rc kl dl else st s q 0 t' r' (pos + 2) k0 k1 rc kl dl) [(k1, false)] :=
    Goes.one fun io => tick_give io s _ p (n + 1) t r (pos + 1) k0 k1 rc kl dl k1 false (by omega) hb (by omega) hB
      (by split <;> (show pos + 2 ≤ s.ty.bpt; omega)) (by split <;> rfl)
  cases h14 : is14 s with
  | false =>
    simp only [tl, h14] at h2 ⊢
    exact h1.trans h2 rfl rfl
  | true =>
    have h3 : Goes 1 (st s p (n + 2) t' r' (pos + 2) k0 k1 rc kl dl) (st s p (n + 3) t' r' (pos + 3) k0 k1 rc kl dl) [(1, false)] :=
      Goes.one fun io => tick_give io s _ p (n + 2) t' r' (pos + 2) k0 k1 rc kl dl 1 false (by omega) hb (by omega) hC
        (by show pos + 3 ≤ s.ty.bpt; omega) rfl
    have h4 : Goes 1 (st s p (n + 3) t' r' (pos + 3) k0 k1 rc kl dl) (st s q 0 t' r' (pos + 4) k0 k1 rc kl dl) [(255, false)] :=
      Goes.one fun io => tick_give io s _ p (n + 3) t' r' (pos + 3) k0 k1 rc kl dl 255 false (by omega) hb (by omega) hD
        (by show pos + 4 ≤ s.ty.bpt; omega) rfl
    simp only [tl, h14] at h2 ⊢
    exact (h1.trans h2 rfl rfl).trans (h3.trans h4 rfl rfl) rfl rfl

theorem data_tail (s : S) (t r pos k0 k1 rc kl dl : Nat) (hb : s.ty.bpt < 60000) (hdl : dl < 65531) (hp : pos + 4 ≤ s.ty.bpt) :
    Goes (2 + (tl s).length) (st s .data dl t r pos k0 k1 rc kl dl)
      (st s .am 0 t t (pos + (2 + (tl s).length)) k0 k1 rc kl dl) (([k0, k1] ++ tl s).map (·, false)) := by
  have i14 : ∀ x y z, is14 (st s .data x t y z k0 k1 rc kl dl) = is14 s := fun _ _ _ => rfl
  apply tail_run s .data .am dl t r t t pos k0 k1 rc kl dl hb hdl hp
  all_goals
    intro io hio; obtain ⟨a, b, d⟩ := io; simp only at hio; subst hio
    show rdData _ _ _ _ = _
    cases h14 : is14 s <;> (simp only [rdData, i14, h14]; simp [st, amRet, Res.bind, nlt])

theorem key_tail (s : S) (t r pos k0 k1 rc kl dl : Nat) (hb : s.ty.bpt < 60000) (hdl : kl < 65531) (hp : pos + 4 ≤ s.ty.bpt) :
    Goes (2 + (tl s).length) (st s .key kl t r pos k0 k1 rc kl dl)
      (st s .gap3 0 t r (pos + (2 + (tl s).length)) k0 k1 rc kl dl) (([k0, k1] ++ tl s).map (·, false)) := by
  have i14 : ∀ x y z, is14 (st s .key x t y z k0 k1 rc kl dl) = is14 s := fun _ _ _ => rfl
  apply tail_run s .key .gap3 kl t r t r pos k0 k1 rc kl dl hb hdl hp
  all_goals
    intro io hio; obtain ⟨a, b, d⟩ := io; simp only at hio; subst hio
    show rdKey _ _ _ _ = _
    cases h14 : is14 s <;> (simp only [rdKey, i14, h14]; simp [st, amRet, Res.bind, nlt])

/-- After a count field comes the key, or the data when there is no key. -/
def nextPos (kl : Nat) : Pos := if kl = 0 then .gap3 else .gap2

theorem cnt0_tail (s : S) (t r pos k0 k1 rc kl dl : Nat) (hb : s.ty.bpt < 60000) (hp : pos + 4 ≤ s.ty.bpt) :
    Goes (2 + (tl s).length) (st s .cnt0 9 t r pos k0 k1 rc kl dl)
      (st s (nextPos kl) 0 t r (pos + (2 + (tl s).length)) k0 k1 rc kl dl) (([k0, k1] ++ tl s).map (·, false)) := by
  have i14 : ∀ x y z, is14 (st s .cnt0 x t y z k0 k1 rc kl dl) = is14 s := fun _ _ _ => rfl
  apply tail_run s .cnt0 (nextPos kl) 9 t r t r pos k0 k1 rc kl dl hb (by decide) hp
  all_goals
    intro io hio; obtain ⟨a, b, d⟩ := io; simp only at hio; subst hio
    show rdCnt0 _ _ _ = _
    by_cases hk : kl = 0 <;> cases h14 : is14 s <;> (simp only [rdCnt0, i14, h14]; simp [st, amRet, Res.bind, afterCount, nextPos, hk])

theorem cnt1_tail (s : S) (t r pos k0 k1 rc kl dl : Nat) (hb : s.ty.bpt < 60000) (hp : pos + 4 ≤ s.ty.bpt) :
    Goes (2 + (tl s).length) (st s .cnt1 9 t r pos k0 k1 rc kl dl)
      (st s (nextPos kl) 0 t r (pos + (2 + (tl s).length)) k0 k1 rc kl dl) (([k0, k1] ++ tl s).map (·, false)) := by
  have i14 : ∀ x y z, is14 (st s .cnt1 x t y z k0 k1 rc kl dl) = is14 s := fun _ _ _ => rfl
  apply tail_run s .cnt1 (nextPos kl) 9 t r t r pos k0 k1 rc kl dl hb (by decide) hp
  all_goals
    intro io hio; obtain ⟨a, b, d⟩ := io; simp only at hio; subst hio
    show rdCnt1 _ _ _ = _
    by_cases hk : kl = 0 <;> cases h14 : is14 s <;> (simp only [rdCnt1, i14, h14]; simp [st, amRet, Res.bind, afterCount, nextPos, hk])

theorem ha_tail (s : S) (t r pos k0 k1 rc kl dl : Nat) (hb : s.ty.bpt < 60000) (hp : pos + 4 ≤ s.ty.bpt) :
    Goes (2 + (tl s).length) (st s .ha 5 t r pos k0 k1 rc kl dl)
      (st s .gap1 0 5 5 (pos + (2 + (tl s).length)) k0 k1 rc kl dl) (([k0, k1] ++ tl s).map (·, false)) := by
  have i14 : ∀ x y z w, is14 (st s .ha x w y z k0 k1 rc kl dl) = is14 s := fun _ _ _ _ => rfl
  apply tail_run s .ha .gap1 5 t r 5 5 pos k0 k1 rc kl dl hb (by decide) hp
  all_goals
    intro io hio; obtain ⟨a, b, d⟩ := io; simp only at hio; subst hio
    show rdHa _ _ _ = _
    cases h14 : is14 s <;> (simp only [rdHa, i14, h14]; simp [st])

/-- A gap, then the byte that leads a field. -/
theorem gap_run (s : S) (p q : Pos) (t r pos k0 k1 rc kl dl g v : Nat) (m : Bool) (hb : s.ty.bpt < 60000) (hg : g < 60000)
    (w : ∀ c pos, c < g → ∀ io : Io, io.am = false →
      ∃ io', rdSwitch (st s p (c + 1) t r (pos + 1) k0 k1 rc kl dl) c (t + s.tstart) io =
        .ok (st s p (c + 1) t r (pos + 1) k0 k1 rc kl dl, some false, io'))
    (f : ∀ pos, ∀ io : Io, io.am = false → rdSwitch (st s p (g + 1) t r (pos + 1) k0 k1 rc kl dl) g (t + s.tstart) io =
      .ok (st s q 0 t r (pos + 1) 255 255 rc kl dl, none, ⟨v, m, io.ix⟩)) (hp : pos + (g + 1) ≤ s.ty.bpt) :
    Goes (g + 1) (st s p 0 t r pos k0 k1 rc kl dl) (st s q 0 t r (pos + (g + 1)) 255 255 rc kl dl) [(v, m)] := by
  have h1 := wait s p t r k0 k1 rc kl dl g hb hg w g 0 pos (by omega) (by omega)
  have h2 : Goes 1 (st s p g t r (pos + g) k0 k1 rc kl dl) (st s q 0 t r (pos + g + 1) 255 255 rc kl dl) [(v, m)] :=
    Goes.one fun io => tick_give io s _ p g t r (pos + g) k0 k1 rc kl dl v m (by omega) hb (by omega) (f _)
      (by show pos + g + 1 ≤ s.ty.bpt; omega) rfl
  exact h1.trans h2 rfl rfl

/-- What the table of drives provides. -/
structure Std (t : DiskType) : Prop where
  bpt : t.bpt < 60000
  g1 : t.g1 < 60000
  g2 : t.g2 < 60000
  g4 : t.g4 < 60000
  fr : Spec.frame t = if t.dev == 0x14 then ⟨5, 3, 6, 2, 1, true, [1, 255]⟩ else ⟨6, 6, 6, 6, 6, false, []⟩
  sync : t.sync = if t.dev == 0x14 then 5 else 6

theorem std (t : DiskType) (ht : t ∈ diskTypes) : Std t := by
  simp only [diskTypes, List.mem_cons, List.not_mem_nil, or_false] at ht
  rcases ht with h | h | h | h <;> subst h <;> exact ⟨by decide, by decide, by decide, by decide, by decide, by decide⟩

theorem std_tl (s : S) (h : Std s.ty) : tl s = (Spec.frame s.ty).tail := by
  rw [h.fr]; unfold tl is14; split <;> rfl

theorem syncIn_st (s : S) (h : Std s.ty) (p : Pos) (c t r pos k0 k1 rc kl dl mark : Nat) (io : Io) (hio : io.am = false) :
    syncIn (st s p c t r pos k0 k1 rc kl dl) io mark =
      (st s p c t r pos k0 k1 rc kl dl, none, ⟨if is14 s then mark else 6, is14 s, io.ix⟩) := by
  obtain ⟨a, b, d⟩ := io; simp only at hio; subst hio
  have i : is14 (st s p c t r pos k0 k1 rc kl dl) = is14 s := rfl
  have hs := h.sync
  unfold syncIn
  rw [i]
  cases h14 : is14 s with
  | false =>
    unfold is14 at h14
    rw [h14] at hs
    show amRet _ ⟨s.ty.sync, false, d⟩ = _
    rw [hs]; rfl
  | true => rfl

theorem gap2_run (s : S) (h : Std s.ty) (t r pos k0 k1 rc kl dl : Nat) (hp : pos + (s.ty.g2 + 1) ≤ s.ty.bpt) :
    Goes (s.ty.g2 + 1) (st s .gap2 0 t r pos k0 k1 rc kl dl) (st s .key 0 t r (pos + (s.ty.g2 + 1)) 255 255 rc kl dl)
      [((Spec.frame s.ty).key, (Spec.frame s.ty).am)] := by
  have e : [((Spec.frame s.ty).key, (Spec.frame s.ty).am)] = [(if is14 s then 2 else 6, is14 s)] := by
    rw [h.fr]; unfold is14; split <;> simp_all
  rw [e]
  apply gap_run s .gap2 .key t r pos k0 k1 rc kl dl s.ty.g2 _ _ h.bpt h.g2 _ _ hp
  · intro c pos hc io _
    refine ⟨io, ?_⟩
    show rdGap _ _ _ _ _ = _
    exact if_neg (show ¬ c = s.ty.g2 by omega)
  · intro pos io hio
    show rdGap _ _ _ _ _ = _
    refine (if_pos (show s.ty.g2 = s.ty.g2 from rfl)).trans ?_
    have := syncIn_st s h .key 0 t r (pos + 1) 255 255 rc kl dl 2 io hio
    exact congrArg Res.ok this

theorem gap3_run (s : S) (h : Std s.ty) (t r pos k0 k1 rc kl dl : Nat) (hp : pos + (s.ty.g2 + 1) ≤ s.ty.bpt) :
    Goes (s.ty.g2 + 1) (st s .gap3 0 t r pos k0 k1 rc kl dl) (st s .data 0 t r (pos + (s.ty.g2 + 1)) 255 255 rc kl dl)
      [((Spec.frame s.ty).data, (Spec.frame s.ty).am)] := by
  have e : [((Spec.frame s.ty).data, (Spec.frame s.ty).am)] = [(if is14 s then 1 else 6, is14 s)] := by
    rw [h.fr]; unfold is14; split <;> simp_all
  rw [e]
  apply gap_run s .gap3 .data t r pos k0 k1 rc kl dl s.ty.g2 _ _ h.bpt h.g2 _ _ hp
  · intro c pos hc io _
    refine ⟨io, ?_⟩
    show rdGap _ _ _ _ _ = _
    exact if_neg (show ¬ c = s.ty.g2 by omega)
  · intro pos io hio
    show rdGap _ _ _ _ _ = _
    refine (if_pos (show s.ty.g2 = s.ty.g2 from rfl)).trans ?_
    have := syncIn_st s h .data 0 t r (pos + 1) 255 255 rc kl dl 1 io hio
    exact congrArg Res.ok this

theorem key_field (s : S) (h : Std s.ty) (buf : List Nat) (hbuf : s.cbuf = some buf) (vs rest : List Nat) (t r pos k0 k1 rc dl : Nat)
    (hd : buf.drop (t + s.tstart) = vs ++ rest) (hl : vs.length < 256) (ht : t ≤ pos)
    (hp : pos + Spec.fieldTime (Spec.frame s.ty) s.ty.g2 vs.length ≤ s.ty.bpt - 2) :
    ∃ a b, Goes (Spec.fieldTime (Spec.frame s.ty) s.ty.g2 vs.length) (st s .gap2 0 t r pos k0 k1 rc vs.length dl)
      (st s .gap3 0 (t + vs.length) r (pos + Spec.fieldTime (Spec.frame s.ty) s.ty.g2 vs.length) a b rc vs.length dl)
      (Spec.plain (Spec.frame s.ty) (Spec.frame s.ty).key vs) := by
  have hb := h.bpt
  unfold Spec.fieldTime at hp ⊢
  have h1 := gap2_run s h t r pos k0 k1 rc vs.length dl (by omega)
  have h2 := key_run s r rc vs.length dl h.bpt (by omega) buf hbuf vs rest t (pos + (s.ty.g2 + 1)) 255 255 hd rfl (by omega) (by omega)
  have h3 := key_tail s (t + vs.length) r (pos + (s.ty.g2 + 1) + vs.length) (ckRun 0 255 255 vs).1 (ckRun 0 255 255 vs).2 rc vs.length dl
    h.bpt (by omega) (by omega)
  rw [std_tl s h] at h3
  refine ⟨(ckRun 0 255 255 vs).1, (ckRun 0 255 255 vs).2, ?_⟩
  rw [show pos + (s.ty.g2 + 1 + vs.length + 2 + (Spec.frame s.ty).tail.length) =
    pos + (s.ty.g2 + 1) + vs.length + (2 + (Spec.frame s.ty).tail.length) by omega]
  refine (h1.trans h2 rfl rfl).trans h3 (by omega) ?_
  rw [ckRun_eq]
  simp [Spec.plain, Spec.sum]

theorem data_field (s : S) (h : Std s.ty) (buf : List Nat) (hbuf : s.cbuf = some buf) (vs rest : List Nat) (t r pos k0 k1 rc kl : Nat)
    (hd : buf.drop (t + s.tstart) = vs ++ rest) (ht : t ≤ pos)
    (hp : pos + Spec.fieldTime (Spec.frame s.ty) s.ty.g2 vs.length ≤ s.ty.bpt - 2) :
    ∃ a b, Goes (Spec.fieldTime (Spec.frame s.ty) s.ty.g2 vs.length) (st s .gap3 0 t r pos k0 k1 rc kl vs.length)
      (st s .am 0 (t + vs.length) (t + vs.length) (pos + Spec.fieldTime (Spec.frame s.ty) s.ty.g2 vs.length) a b rc kl vs.length)
      (Spec.plain (Spec.frame s.ty) (Spec.frame s.ty).data vs) := by
  have hb := h.bpt
  unfold Spec.fieldTime at hp ⊢
  have h1 := gap3_run s h t r pos k0 k1 rc kl vs.length (by omega)
  have h2 := data_run s r rc kl vs.length h.bpt (by omega) buf hbuf vs rest t (pos + (s.ty.g2 + 1)) 255 255 hd rfl (by omega) (by omega)
  have h3 := data_tail s (t + vs.length) r (pos + (s.ty.g2 + 1) + vs.length) (ckRun 0 255 255 vs).1 (ckRun 0 255 255 vs).2 rc kl vs.length
    h.bpt (by omega) (by omega)
  rw [std_tl s h] at h3
  refine ⟨(ckRun 0 255 255 vs).1, (ckRun 0 255 255 vs).2, ?_⟩
  rw [show pos + (s.ty.g2 + 1 + vs.length + 2 + (Spec.frame s.ty).tail.length) =
    pos + (s.ty.g2 + 1) + vs.length + (2 + (Spec.frame s.ty).tail.length) by omega]
  refine (h1.trans h2 rfl rfl).trans h3 (by omega) ?_
  rw [ckRun_eq]
  simp [Spec.plain, Spec.sum]

/-- Key and data. -/
theorem body_run (s : S) (h : Std s.ty) (buf : List Nat) (hbuf : s.cbuf = some buf) (x : Spec.Rec) (hx : Spec.Fits x) (rest : List Nat)
    (t r pos k0 k1 rc : Nat) (hd : buf.drop (t + s.tstart) = x.key ++ x.data ++ rest) (ht : t ≤ pos)
    (hp : pos + Spec.bodyTime s.ty x ≤ s.ty.bpt - 2) :
    ∃ a b, Goes (Spec.bodyTime s.ty x) (st s (nextPos x.key.length) 0 t r pos k0 k1 rc x.key.length x.data.length)
      (st s .am 0 (t + x.key.length + x.data.length) (t + x.key.length + x.data.length) (pos + Spec.bodyTime s.ty x) a b rc
        x.key.length x.data.length)
      (Spec.body (Spec.frame s.ty) x) := by
  unfold Spec.bodyTime at hp ⊢
  unfold Spec.body
  by_cases hk : x.key = []
  · rw [if_pos hk, Nat.zero_add] at hp ⊢
    rw [if_pos hk, hk]
    rw [hk] at hd
    exact data_field s h buf hbuf x.data rest t r pos k0 k1 rc 0 hd ht hp
  · rw [if_neg hk] at hp ⊢
    rw [if_neg hk]
    have hn : nextPos x.key.length = .gap2 := by
      unfold nextPos
      rw [if_neg (fun e => hk (List.length_eq_zero_iff.1 e))]
    rw [hn]
    obtain ⟨a, b, h1⟩ := key_field s h buf hbuf x.key (x.data ++ rest) t r pos k0 k1 rc x.data.length (by rw [hd, List.append_assoc])
      hx.key ht (by omega)
    have hq : t + x.key.length ≤ pos + Spec.fieldTime (Spec.frame s.ty) s.ty.g2 x.key.length := by unfold Spec.fieldTime; omega
    obtain ⟨a', b', h2⟩ := data_field s h buf hbuf x.data rest (t + x.key.length) r
      (pos + Spec.fieldTime (Spec.frame s.ty) s.ty.g2 x.key.length) a b rc x.key.length
      (by rw [show t + x.key.length + s.tstart = t + s.tstart + x.key.length by omega, ← List.drop_drop, hd, List.append_assoc,
            List.drop_left]) hq (by omega)
    refine ⟨a', b', ?_⟩
    rw [show pos + (Spec.fieldTime (Spec.frame s.ty) s.ty.g2 x.key.length + Spec.fieldTime (Spec.frame s.ty) s.ty.g2 x.data.length) =
      pos + Spec.fieldTime (Spec.frame s.ty) s.ty.g2 x.key.length + Spec.fieldTime (Spec.frame s.ty) s.ty.g2 x.data.length by omega]
    exact h1.trans h2 rfl rfl

/-! ### Count fields -/

theorem getB_at (s : S) (buf l : List Nat) (hbuf : s.cbuf = some buf) (a i v : Nat) (h : buf.drop a = l) (hv : l[i]? = some v) :
    getB s (a + i) = .ok v := by
  unfold getB
  rw [hbuf]
  have : buf[a + i]? = some v := by rw [← List.getElem?_drop, h, hv]
  simp only [this]; rfl

theorem rec_at (s : S) (buf l : List Nat) (hbuf : s.cbuf = some buf) (p : Pos) (c t r pos k0 k1 rc kl dl i v : Nat)
    (h : buf.drop (r + s.tstart) = l) (hv : l[i]? = some v) : recB (st s p c t r pos k0 k1 rc kl dl) i = .ok v := by
  show getB (st s p c t r pos k0 k1 rc kl dl) (r + s.tstart + i) = _
  exact getB_at _ buf l hbuf _ _ _ h hv

theorem not_end (c h : Nat) (hc : c < 65536) (hh : h < 65536) (hl : ¬ (c = 65535 ∧ h = 65535)) :
    ((c / 256 &&& c % 256 &&& h / 256 &&& h % 256) == 0xff) = false := by
  have h1 : c / 256 &&& c % 256 &&& h / 256 &&& h % 256 ≤ c / 256 &&& c % 256 &&& h / 256 := Nat.and_le_left
  have h2 : c / 256 &&& c % 256 &&& h / 256 ≤ c / 256 &&& c % 256 := Nat.and_le_left
  have h3 : c / 256 &&& c % 256 ≤ c / 256 := Nat.and_le_left
  have h4 : c / 256 &&& c % 256 ≤ c % 256 := Nat.and_le_right
  have h5 : c / 256 &&& c % 256 &&& h / 256 ≤ h / 256 := Nat.and_le_right
  have h6 : c / 256 &&& c % 256 &&& h / 256 &&& h % 256 ≤ h % 256 := Nat.and_le_right
  rw [beq_eq_false_iff_ne]
  omega

theorem glue (n : Nat) : ((n / 256) <<< 8) ||| (n % 256) = n := by
  rw [← Nat.shiftLeft_add_eq_or_of_lt (by omega : n % 256 < 2 ^ 8), Nat.shiftLeft_eq]
  omega

theorem atEnd_rec (s : S) (buf rest : List Nat) (hbuf : s.cbuf = some buf) (x : Spec.Rec) (hx : Spec.Fits x) (p : Pos)
    (c t r pos k0 k1 rc kl dl : Nat) (h : buf.drop (r + s.tstart) = Spec.count x ++ rest) :
    atEnd (st s p c t r pos k0 k1 rc kl dl) = .ok false := by
  unfold atEnd
  rw [rec_at s buf _ hbuf p c t r pos k0 k1 rc kl dl 0 _ h rfl, bk, rec_at s buf _ hbuf p c t r pos k0 k1 rc kl dl 1 _ h rfl, bk,
    rec_at s buf _ hbuf p c t r pos k0 k1 rc kl dl 2 _ h rfl, bk, rec_at s buf _ hbuf p c t r pos k0 k1 rc kl dl 3 _ h rfl, bk,
    not_end _ _ hx.cyl hx.hd hx.live]

theorem lengths_rec (s : S) (buf rest : List Nat) (hbuf : s.cbuf = some buf) (x : Spec.Rec) (p : Pos)
    (c t r pos k0 k1 rc kl dl : Nat) (h : buf.drop (r + s.tstart) = Spec.count x ++ rest) :
    lengths (st s p c t r pos k0 k1 rc kl dl) = .ok (st s p c t r pos k0 k1 rc x.key.length x.data.length) := by
  unfold lengths
  rw [rec_at s buf _ hbuf p c t r pos k0 k1 rc kl dl 5 _ h rfl, bk, rec_at s buf _ hbuf p c t r pos k0 k1 rc kl dl 6 _ h rfl, bk,
    rec_at s buf _ hbuf p c t r pos k0 k1 rc kl dl 7 _ h rfl, bk, glue]
  rfl

theorem cnt0_run (s : S) (r rc kl dl : Nat) (hb : s.ty.bpt < 60000) (buf : List Nat) (hbuf : s.cbuf = some buf)
    (vs rest : List Nat) (pos k0 k1 : Nat) (hd : buf.drop (r + s.tstart) = vs ++ rest) (hl : vs.length = 8)
    (ht : r < 65500) (hp : pos + 8 ≤ s.ty.bpt) :
    Goes 8 (st s .cnt0 1 r r pos k0 k1 rc kl dl)
      (st s .cnt0 9 (r + 8) r (pos + 8) (ckRun 0 k0 k1 vs).1 (ckRun 0 k0 k1 vs).2 rc kl dl) (vs.map (·, false)) := by
  have := run s .cnt0 r rc kl dl 1 9 hb (by omega) (fun c t => 1 ≤ c ∧ t + 1 = r + c) (fun c t h => ⟨by omega, by omega⟩) (by
    intro c t pos k0 k1 v hc ht ⟨hc1, hi⟩ hg io hio
    show rdCnt0 _ _ _ = _
    unfold rdCnt0
    rw [if_neg (by omega), if_pos (by omega)]
    have e0 : recB (st s .cnt0 (c + 1) t r (pos + 1) k0 k1 rc kl dl) (c - 1) = .ok v := by
      show getB s (r + s.tstart + (c - 1)) = _
      rw [show r + s.tstart + (c - 1) = t + s.tstart by omega]; exact hg
    rw [e0, bk, bk]
    have e1 : u16 (t + 1) = t + 1 := Nat.mod_eq_of_lt (by omega)
    have e2 : ckRun (c - 1) k0 k1 [v] = ckRun (c + 1) k0 k1 [v] := by
      simp only [ckRun]
      rw [show (c - 1) % 2 = (c + 1) % 2 by omega]
    rw [ckx_run]
    show Res.ok (amRet { st s .cnt0 (c + 1) t r (pos + 1) (ckRun (c - 1) k0 k1 [v]).1 (ckRun (c - 1) k0 k1 [v]).2 rc kl dl with tpos := u16 (t + 1) } _) = _
    rw [e1, e2]
    obtain ⟨a, b, d⟩ := io
    simp only at hio
    subst hio
    rfl) buf hbuf vs rest 1 r pos k0 k1 hd (by omega) (by omega) (by omega) ⟨by omega, by omega⟩ (by omega)
  rw [hl] at this
  have e : ckRun (1 + 1) k0 k1 vs = ckRun 0 k0 k1 vs := by rw [ckRun_eq, ckRun_eq]
  rw [e] at this
  exact this

theorem ha_run (s : S) (rc kl dl : Nat) (hb : s.ty.bpt < 60000) (buf : List Nat) (hbuf : s.cbuf = some buf)
    (vs rest : List Nat) (pos k0 k1 : Nat) (hd : buf.drop s.tstart = vs ++ rest) (hl : vs.length = 5) (hp : pos + 5 ≤ s.ty.bpt) :
    Goes 5 (st s .ha 0 0 0 pos k0 k1 rc kl dl)
      (st s .ha 5 5 0 (pos + 5) (ckRun 1 k0 k1 vs).1 (ckRun 1 k0 k1 vs).2 rc kl dl) (vs.map (·, false)) := by
  have := run s .ha 0 rc kl dl 1 5 hb (by omega) (fun c t => t = c) (fun c t h => by rw [h]) (by
    intro c t pos k0 k1 v hc ht hi hg io hio
    subst hi
    show rdHa _ _ _ = _
    unfold rdHa
    rw [if_pos (by omega)]
    have e0 : recB (st s .ha (t + 1) t 0 (pos + 1) k0 k1 rc kl dl) t = .ok v := by
      show getB s (0 + s.tstart + t) = _
      rw [show 0 + s.tstart + t = t + s.tstart by omega]; exact hg
    rw [e0, bk]
    have e1 : u16 (t + 1) = t + 1 := Nat.mod_eq_of_lt (by omega)
    rw [ckx_run]
    show Res.ok ({ st s .ha (t + 1) t 0 (pos + 1) (ckRun (t + 1) k0 k1 [v]).1 (ckRun (t + 1) k0 k1 [v]).2 rc kl dl with tpos := u16 (t + 1) }, _, _) = _
    rw [e1]
    obtain ⟨a, b, d⟩ := io
    simp only at hio
    subst hio
    rfl) buf hbuf vs rest 0 0 pos k0 k1 (by rw [Nat.zero_add]; exact hd) (by omega) (by omega) (by omega) rfl (by omega)
  rw [hl] at this
  exact this

theorem gap1_run (s : S) (h : Std s.ty) (buf rest : List Nat) (hbuf : s.cbuf = some buf) (x : Spec.Rec) (hx : Spec.Fits x)
    (r pos k0 k1 rc kl dl : Nat) (hd : buf.drop (r + s.tstart) = Spec.count x ++ rest) (hp : pos + (s.ty.g1 + 1) ≤ s.ty.bpt) :
    Goes (s.ty.g1 + 1) (st s .gap1 0 r r pos k0 k1 rc kl dl) (st s .cnt0 0 r r (pos + (s.ty.g1 + 1)) 255 255 rc kl dl)
      [((Spec.frame s.ty).r0, (Spec.frame s.ty).am)] := by
  have e : [((Spec.frame s.ty).r0, (Spec.frame s.ty).am)] = [(if is14 s then 3 else 6, is14 s)] := by
    rw [h.fr]; unfold is14; split <;> simp_all
  rw [e]
  apply gap_run s .gap1 .cnt0 r r pos k0 k1 rc kl dl s.ty.g1 _ _ h.bpt h.g1 _ _ hp
  · intro c pos hc io _
    refine ⟨io, ?_⟩
    show rdGap1 _ _ _ = _
    exact if_neg (show ¬ c = s.ty.g1 by omega)
  · intro pos io hio
    show rdGap1 _ _ _ = _
    refine (if_pos (show s.ty.g1 = s.ty.g1 from rfl)).trans ?_
    rw [atEnd_rec s buf rest hbuf x hx _ _ _ _ _ _ _ _ _ _ hd, bk]
    have := syncIn_st s h .cnt0 0 r r (pos + 1) 255 255 rc kl dl 3 io hio
    exact congrArg Res.ok this

/-- The flag byte of record zero. -/
theorem cnt0_flag (s : S) (h : Std s.ty) (buf rest : List Nat) (hbuf : s.cbuf = some buf) (x : Spec.Rec) (hx : Spec.Fits x)
    (r pos k0 k1 rc kl dl : Nat) (hd : buf.drop (r + s.tstart) = Spec.count x ++ rest) (hp : pos + 1 ≤ s.ty.bpt) :
    Goes 1 (st s .cnt0 0 r r pos k0 k1 rc kl dl) (st s .cnt0 1 r r (pos + 1) k0 k1 0 x.key.length x.data.length) [(0, false)] :=
  Goes.one fun io => tick_give io s _ .cnt0 0 r r pos k0 k1 rc kl dl 0 false (by omega) h.bpt (by omega) (by
    intro io hio
    obtain ⟨a, b, d⟩ := io; simp only at hio; subst hio
    show rdCnt0 _ _ _ = _
    unfold rdCnt0
    rw [if_pos rfl, atEnd_rec s buf rest hbuf x hx _ _ _ _ _ _ _ _ _ _ hd, bk]
    have := lengths_rec s buf rest hbuf x .cnt0 1 r r (pos + 1) k0 k1 0 kl dl hd
    show ((lengths (st s .cnt0 1 r r (pos + 1) k0 k1 0 kl dl)).bind _).bind _ = _
    rw [this]
    rfl) hp rfl

/-- The gap, the count field of record zero. -/
theorem cnt0_field (s : S) (h : Std s.ty) (buf rest : List Nat) (hbuf : s.cbuf = some buf) (x : Spec.Rec) (hx : Spec.Fits x)
    (r pos k0 k1 rc kl dl : Nat) (hd : buf.drop (r + s.tstart) = Spec.count x ++ rest) (hr : r ≤ pos)
    (hp : pos + Spec.fieldTime (Spec.frame s.ty) s.ty.g1 9 ≤ s.ty.bpt - 2) :
    ∃ a b, Goes (Spec.fieldTime (Spec.frame s.ty) s.ty.g1 9) (st s .gap1 0 r r pos k0 k1 rc kl dl)
      (st s (nextPos x.key.length) 0 (r + 8) r (pos + Spec.fieldTime (Spec.frame s.ty) s.ty.g1 9) a b 0 x.key.length x.data.length)
      (Spec.flagged (Spec.frame s.ty) (Spec.frame s.ty).r0 (0 :: Spec.count x)) := by
  have hb := h.bpt
  unfold Spec.fieldTime at hp ⊢
  have h1 := gap1_run s h buf rest hbuf x hx r pos k0 k1 rc kl dl hd (by omega)
  have h2 := cnt0_flag s h buf rest hbuf x hx r (pos + (s.ty.g1 + 1)) 255 255 rc kl dl hd (by omega)
  have h3 := cnt0_run s r 0 x.key.length x.data.length h.bpt buf hbuf (Spec.count x) rest (pos + (s.ty.g1 + 1) + 1) 255 255 hd rfl
    (by omega) (by omega)
  have h4 := cnt0_tail s (r + 8) r (pos + (s.ty.g1 + 1) + 1 + 8) (ckRun 0 255 255 (Spec.count x)).1 (ckRun 0 255 255 (Spec.count x)).2 0
    x.key.length x.data.length h.bpt (by omega)
  rw [std_tl s h] at h4
  refine ⟨(ckRun 0 255 255 (Spec.count x)).1, (ckRun 0 255 255 (Spec.count x)).2, ?_⟩
  rw [show pos + (s.ty.g1 + 1 + 9 + 2 + (Spec.frame s.ty).tail.length) =
    pos + (s.ty.g1 + 1) + 1 + 8 + (2 + (Spec.frame s.ty).tail.length) by omega]
  refine ((h1.trans h2 rfl rfl).trans h3 rfl rfl).trans h4 (by omega) ?_
  rw [ckRun_eq]
  simp [Spec.flagged, Spec.sum, Spec.count, Spec.even, Spec.odd]

/-! ### The other records -/

theorem am_wait (s : S) (h : Std s.ty) (t r pos k0 k1 rc kl dl : Nat) (hp : pos + s.ty.g2 ≤ s.ty.bpt + 1) :
    Goes s.ty.g2 (st s .am 0 t r pos k0 k1 rc kl dl) (st s .am s.ty.g2 t r (pos + s.ty.g2) k0 k1 rc kl dl) [] := by
  refine wait s .am t r k0 k1 rc kl dl s.ty.g2 h.bpt h.g2 ?_ s.ty.g2 0 pos (by omega) hp
  intro c pos hc io hio
  by_cases hg : c + 2 > s.ty.g2
  · refine ⟨{ io with data := 0xff, am := true }, ?_⟩
    show rdAm _ _ _ = _
    refine (if_neg (show ¬ c = s.ty.g2 by omega)).trans ((if_pos (show c + 2 > s.ty.g2 from hg)).trans ?_)
    rfl
  · refine ⟨io, ?_⟩
    show rdAm _ _ _ = _
    exact (if_neg (show ¬ c = s.ty.g2 by omega)).trans (if_neg (show ¬ c + 2 > s.ty.g2 from hg))

theorem am_run (s : S) (h : Std s.ty) (buf rest : List Nat) (hbuf : s.cbuf = some buf) (x : Spec.Rec) (hx : Spec.Fits x)
    (r pos k0 k1 rc kl dl : Nat) (hd : buf.drop (r + s.tstart) = Spec.count x ++ rest) (hp : pos + (s.ty.g2 + 1) ≤ s.ty.bpt) :
    Goes (s.ty.g2 + 1) (st s .am 0 r r pos k0 k1 rc kl dl) (st s .cnt1 0 r r (pos + s.ty.g2 + 1) 255 255 rc kl dl)
      [((Spec.frame s.ty).rn, (Spec.frame s.ty).am)] := by
  have e : [((Spec.frame s.ty).rn, (Spec.frame s.ty).am)] = [(6, is14 s)] := by
    rw [h.fr]; unfold is14; split <;> simp_all
  rw [e]
  refine (am_wait s h r r pos k0 k1 rc kl dl (by omega)).trans (m := [(6, is14 s)]) ?_ rfl rfl
  refine Goes.one fun io => tick_give io s _ .am s.ty.g2 r r (pos + s.ty.g2) k0 k1 rc kl dl 6 (is14 s) (by omega) h.bpt
    (by have := h.g2; omega) ?_ (by show pos + s.ty.g2 + 1 ≤ s.ty.bpt; omega) rfl
  intro io hio
  obtain ⟨a, b, d⟩ := io; simp only at hio; subst hio
  show rdAm _ _ _ = _
  refine (if_pos (show s.ty.g2 = s.ty.g2 from rfl)).trans ?_
  rw [atEnd_rec s buf rest hbuf x hx _ _ _ _ _ _ _ _ _ _ hd, bk]
  have i : is14 (st s .am (s.ty.g2 + 1) r r (pos + s.ty.g2 + 1) k0 k1 rc kl dl) = is14 s := rfl
  rw [i]
  have hs := h.sync
  cases h14 : is14 s with
  | true => rfl
  | false =>
    unfold is14 at h14
    rw [h14] at hs
    show Res.ok (_, none, Io.mk s.ty.sync false d) = _
    rw [hs]; rfl

theorem bit_7 : ∀ a < 256, (a &&& 0x80 ≠ 0 ↔ 128 ≤ a) := by decide +kernel

theorem rnFlag_eq (x : Spec.Rec) (n : Nat) (hx : x.cyl < 65536) : rnFlag (x.cyl / 256) n = Spec.flag n x := by
  have h1 := bit_7 (x.cyl / 256) (by omega)
  have h2 : n &&& 1 = n % 2 := Nat.and_two_pow_sub_one_eq_mod n 1
  unfold rnFlag Spec.flag
  rw [h2]
  by_cases hc : 32768 ≤ x.cyl
  · rw [if_pos (h1.2 (by omega)), if_pos hc]
    by_cases hn : n % 2 = 1
    · rw [if_pos hn, if_pos (by omega)]; rfl
    · rw [if_neg hn, if_neg (by omega)]; rfl
  · rw [if_neg (fun h => by have := h1.1 h; omega), if_neg hc]
    by_cases hn : n % 2 = 1
    · rw [if_pos hn, if_pos (by omega)]; rfl
    · rw [if_neg hn, if_neg (by omega)]; rfl

theorem flag_mod (n m : Nat) (x : Spec.Rec) (h : n % 2 = m % 2) : Spec.flag n x = Spec.flag m x := by
  unfold Spec.flag; rw [h]

/-- The flag byte of the records after record zero. -/
theorem cnt1_flag (s : S) (h : Std s.ty) (buf rest : List Nat) (hbuf : s.cbuf = some buf) (x : Spec.Rec) (hx : Spec.Fits x)
    (r pos k0 k1 rc kl dl : Nat) (hd : buf.drop (r + s.tstart) = Spec.count x ++ rest) (hp : pos + 1 ≤ s.ty.bpt) :
    Goes 1 (st s .cnt1 0 r r pos k0 k1 rc kl dl)
      (st s .cnt1 1 r r (pos + 1) k0 (k1 ^^^ Spec.flag (rc + 1) x) ((rc + 1) % 256) x.key.length x.data.length)
      [(Spec.flag (rc + 1) x, false)] :=
  Goes.one fun io => tick_give io s _ .cnt1 0 r r pos k0 k1 rc kl dl _ false (by omega) h.bpt (by omega) (by
    intro io hio
    obtain ⟨a, b, d⟩ := io; simp only at hio; subst hio
    show rdCnt1 _ _ _ = _
    unfold rdCnt1
    rw [if_pos rfl, atEnd_rec s buf rest hbuf x hx _ _ _ _ _ _ _ _ _ _ hd, bk]
    have e := lengths_rec s buf rest hbuf x .cnt1 1 r r (pos + 1) k0 k1 ((rc + 1) % 256) kl dl hd
    show (((lengths (st s .cnt1 1 r r (pos + 1) k0 k1 ((rc + 1) % 256) kl dl)).bind _)).bind _ = _
    rw [e, bk, rec_at s buf _ hbuf .cnt1 1 r r (pos + 1) k0 k1 ((rc + 1) % 256) _ _ 0 _ hd rfl, bk, bk]
    have f : rnFlag (x.cyl / 256) ((rc + 1) % 256) = Spec.flag (rc + 1) x := by
      rw [rnFlag_eq x _ hx.cyl]
      exact flag_mod _ _ x (by omega)
    show Res.ok (amRet { st s .cnt1 1 r r (pos + 1) k0 k1 ((rc + 1) % 256) x.key.length x.data.length with
      ck1 := k1 ^^^ rnFlag (x.cyl / 256) ((rc + 1) % 256) } ⟨rnFlag (x.cyl / 256) ((rc + 1) % 256), false, d⟩) = _
    rw [f]
    rfl) hp rfl

theorem and_7f (v : Nat) : v &&& 0x7f = v % 128 := Nat.and_two_pow_sub_one_eq_mod v 7

theorem cnt1_first (s : S) (h : Std s.ty) (buf rest : List Nat) (hbuf : s.cbuf = some buf) (v : Nat)
    (r pos k0 k1 rc kl dl : Nat) (hd : buf.drop (r + s.tstart) = v :: rest) (hr : r < 65500) (hp : pos + 1 ≤ s.ty.bpt) :
    Goes 1 (st s .cnt1 1 r r pos k0 k1 rc kl dl) (st s .cnt1 2 (r + 1) r (pos + 1) (k0 ^^^ (v % 128)) k1 rc kl dl) [(v % 128, false)] :=
  Goes.one fun io => tick_give io s _ .cnt1 1 r r pos k0 k1 rc kl dl _ false (by omega) h.bpt (by omega) (by
    intro io hio
    obtain ⟨a, b, d⟩ := io; simp only at hio; subst hio
    show rdCnt1 _ _ _ = _
    unfold rdCnt1
    rw [if_neg (by decide), if_pos rfl, rec_at s buf _ hbuf .cnt1 _ r r (pos + 1) k0 k1 rc _ _ 0 _ hd rfl, bk, bk, and_7f v]
    have e1 : u16 (r + 1) = r + 1 := Nat.mod_eq_of_lt (by omega)
    show Res.ok (amRet { st s .cnt1 2 r r (pos + 1) (k0 ^^^ (v % 128)) k1 rc kl dl with tpos := u16 (r + 1) } ⟨v % 128, false, d⟩) = _
    rw [e1]
    rfl) hp rfl

theorem cnt1_run (s : S) (r rc kl dl : Nat) (hb : s.ty.bpt < 60000) (buf : List Nat) (hbuf : s.cbuf = some buf)
    (vs rest : List Nat) (pos k0 k1 : Nat) (hd : buf.drop (r + 1 + s.tstart) = vs ++ rest) (hl : vs.length = 7)
    (ht : r < 65500) (hp : pos + 7 ≤ s.ty.bpt) :
    Goes 7 (st s .cnt1 2 (r + 1) r pos k0 k1 rc kl dl)
      (st s .cnt1 9 (r + 8) r (pos + 7) (ckRun 1 k0 k1 vs).1 (ckRun 1 k0 k1 vs).2 rc kl dl) (vs.map (·, false)) := by
  have := run s .cnt1 r rc kl dl 1 9 hb (by omega) (fun c t => 2 ≤ c ∧ t + 1 = r + c) (fun c t h => ⟨by omega, by omega⟩) (by
    intro c t pos k0 k1 v hc ht ⟨hc1, hi⟩ hg io hio
    show rdCnt1 _ _ _ = _
    unfold rdCnt1
    rw [if_neg (by omega), if_neg (by omega), if_pos (by omega)]
    have e0 : recB (st s .cnt1 (c + 1) t r (pos + 1) k0 k1 rc kl dl) (c - 1) = .ok v := by
      show getB s (r + s.tstart + (c - 1)) = _
      rw [show r + s.tstart + (c - 1) = t + s.tstart by omega]; exact hg
    rw [e0, bk, bk]
    have e1 : u16 (t + 1) = t + 1 := Nat.mod_eq_of_lt (by omega)
    have e2 : ckRun (c - 1) k0 k1 [v] = ckRun (c + 1) k0 k1 [v] := by
      simp only [ckRun]
      rw [show (c - 1) % 2 = (c + 1) % 2 by omega]
    rw [ckx_run]
    show Res.ok (amRet { st s .cnt1 (c + 1) t r (pos + 1) (ckRun (c - 1) k0 k1 [v]).1 (ckRun (c - 1) k0 k1 [v]).2 rc kl dl with tpos := u16 (t + 1) } _) = _
    rw [e1, e2]
    obtain ⟨a, b, d⟩ := io
    simp only at hio
    subst hio
    rfl) buf hbuf vs rest 2 (r + 1) pos k0 k1 hd (by omega) (by omega) (by omega) ⟨by omega, by omega⟩ (by omega)
  rw [hl] at this
  have e : ckRun (2 + 1) k0 k1 vs = ckRun 1 k0 k1 vs := by rw [ckRun_eq, ckRun_eq]
  rw [e] at this
  exact this

theorem cnt1_field (s : S) (h : Std s.ty) (buf rest : List Nat) (hbuf : s.cbuf = some buf) (x : Spec.Rec) (hx : Spec.Fits x)
    (r pos k0 k1 rc kl dl : Nat) (hd : buf.drop (r + s.tstart) = Spec.count x ++ rest) (hr : r ≤ pos)
    (hp : pos + Spec.fieldTime (Spec.frame s.ty) s.ty.g2 9 ≤ s.ty.bpt - 2) :
    ∃ a b, Goes (Spec.fieldTime (Spec.frame s.ty) s.ty.g2 9) (st s .am 0 r r pos k0 k1 rc kl dl)
      (st s (nextPos x.key.length) 0 (r + 8) r (pos + Spec.fieldTime (Spec.frame s.ty) s.ty.g2 9) a b ((rc + 1) % 256)
        x.key.length x.data.length)
      (Spec.flagged (Spec.frame s.ty) (Spec.frame s.ty).rn (Spec.flag (rc + 1) x :: Spec.count (Spec.shown x))) := by
  have hb := h.bpt
  unfold Spec.fieldTime at hp ⊢
  have h1 := am_run s h buf rest hbuf x hx r pos k0 k1 rc kl dl hd (by omega)
  have h2 := cnt1_flag s h buf rest hbuf x hx r (pos + s.ty.g2 + 1) 255 255 rc kl dl hd (by omega)
  generalize hf : Spec.flag (rc + 1) x = f at h2 ⊢
  have h3 := cnt1_first s h buf ((Spec.count x).tail ++ rest) hbuf (x.cyl / 256) r (pos + s.ty.g2 + 1 + 1)
    255 (255 ^^^ f) ((rc + 1) % 256) x.key.length x.data.length hd (by omega) (by omega)
  have h4 := cnt1_run s r ((rc + 1) % 256) x.key.length x.data.length h.bpt buf hbuf (Spec.count x).tail rest
    (pos + s.ty.g2 + 1 + 1 + 1) (255 ^^^ (x.cyl / 256 % 128)) (255 ^^^ f)
    (by rw [show r + 1 + s.tstart = (r + s.tstart) + 1 by omega, ← List.drop_drop, hd]; rfl) rfl (by omega) (by omega)
  have h5 := cnt1_tail s (r + 8) r (pos + s.ty.g2 + 1 + 1 + 1 + 7) (ckRun 1 (255 ^^^ (x.cyl / 256 % 128)) (255 ^^^ f) (Spec.count x).tail).1
    (ckRun 1 (255 ^^^ (x.cyl / 256 % 128)) (255 ^^^ f) (Spec.count x).tail).2 ((rc + 1) % 256) x.key.length x.data.length h.bpt (by omega)
  rw [std_tl s h] at h5
  refine ⟨(ckRun 1 (255 ^^^ (x.cyl / 256 % 128)) (255 ^^^ f) (Spec.count x).tail).1,
    (ckRun 1 (255 ^^^ (x.cyl / 256 % 128)) (255 ^^^ f) (Spec.count x).tail).2, ?_⟩
  rw [show pos + (s.ty.g2 + 1 + 9 + 2 + (Spec.frame s.ty).tail.length) =
    pos + s.ty.g2 + 1 + 1 + 1 + 7 + (2 + (Spec.frame s.ty).tail.length) by omega]
  refine (((h1.trans h2 rfl rfl).trans h3 rfl rfl).trans h4 rfl rfl).trans h5 (by omega) ?_
  rw [ckRun_eq]
  have c1 : x.cyl % 32768 / 256 = x.cyl / 256 % 128 := by omega
  have c2 : x.cyl % 32768 % 256 = x.cyl % 256 := by omega
  simp [Spec.flagged, Spec.shown, c1, c2, Spec.sum, Spec.count, Spec.even, Spec.odd]

/-- The end of the track. -/
theorem am_end (s : S) (h : Std s.ty) (buf rest : List Nat) (hbuf : s.cbuf = some buf)
    (r pos k0 k1 rc kl dl : Nat) (hd : buf.drop (r + s.tstart) = Spec.endMark ++ rest) (hp : pos + (s.ty.g2 + 1) ≤ s.ty.bpt) :
    Goes (s.ty.g2 + 1) (st s .am 0 r r pos k0 k1 rc kl dl) (st s .fin 0 r r (pos + (s.ty.g2 + 1)) 255 255 rc kl dl) [] := by
  refine (am_wait s h r r pos k0 k1 rc kl dl (by omega)).trans (m := []) ?_ rfl rfl
  refine Goes.one fun io => tick_quiet io s _ .am s.ty.g2 r r (pos + s.ty.g2) k0 k1 rc kl dl (by omega) h.bpt
    (by have := h.g2; omega) ?_
  intro io hio
  refine ⟨{ io with data := s.ty.sync }, ?_⟩
  show rdAm _ _ _ = _
  refine (if_pos (show s.ty.g2 = s.ty.g2 from rfl)).trans ?_
  have e : atEnd (st s .am (s.ty.g2 + 1) r r (pos + s.ty.g2 + 1) k0 k1 rc kl dl) = .ok true := by
    unfold atEnd
    rw [rec_at s buf _ hbuf _ _ _ _ _ _ _ _ _ _ 0 _ hd rfl, bk, rec_at s buf _ hbuf _ _ _ _ _ _ _ _ _ _ 1 _ hd rfl, bk,
      rec_at s buf _ hbuf _ _ _ _ _ _ _ _ _ _ 2 _ hd rfl, bk, rec_at s buf _ hbuf _ _ _ _ _ _ _ _ _ _ 3 _ hd rfl, bk]
    rfl
  rw [e, bk]
  rfl

theorem others_run (s : S) (h : Std s.ty) (buf rest : List Nat) (hbuf : s.cbuf = some buf) :
    ∀ (xs : List Spec.Rec) (n r pos k0 k1 rc kl dl : Nat), (∀ x ∈ xs, Spec.Fits x) → (rc + 1) % 2 = n % 2 →
      buf.drop (r + s.tstart) = xs.flatMap Spec.bytes ++ (Spec.endMark ++ rest) → r ≤ pos →
      pos + Spec.othersTime s.ty xs ≤ s.ty.bpt - 2 →
      ∃ t' r' a b rc' kl' dl', Goes (Spec.othersTime s.ty xs) (st s .am 0 r r pos k0 k1 rc kl dl)
        (st s .fin 0 t' r' (pos + Spec.othersTime s.ty xs) a b rc' kl' dl') (Spec.others (Spec.frame s.ty) n xs) := by
  intro xs
  induction xs with
  | nil =>
    intro n r pos k0 k1 rc kl dl _ _ hd hr hp
    exact ⟨_, _, _, _, _, _, _, am_end s h buf rest hbuf r pos k0 k1 rc kl dl hd (by unfold Spec.othersTime at hp; omega)⟩
  | cons x xs ih =>
    intro n r pos k0 k1 rc kl dl hx hn hd hr hp
    unfold Spec.othersTime at hp ⊢
    have hf := hx x (List.mem_cons_self ..)
    have hd1 : buf.drop (r + s.tstart) = Spec.count x ++ (x.key ++ x.data ++ (xs.flatMap Spec.bytes ++ (Spec.endMark ++ rest))) := by
      rw [hd, List.flatMap_cons, Spec.bytes]; simp only [List.append_assoc]
    have hd2 : buf.drop (r + 8 + s.tstart) = x.key ++ x.data ++ (xs.flatMap Spec.bytes ++ (Spec.endMark ++ rest)) := by
      rw [show r + 8 + s.tstart = r + s.tstart + 8 by omega, ← List.drop_drop, hd1]; rfl
    have hd3 : buf.drop (r + 8 + x.key.length + x.data.length + s.tstart) = xs.flatMap Spec.bytes ++ (Spec.endMark ++ rest) := by
      rw [show r + 8 + x.key.length + x.data.length + s.tstart = r + 8 + s.tstart + (x.key ++ x.data).length by
        rw [List.length_append]; omega, ← List.drop_drop, hd2, List.drop_left]
    obtain ⟨a1, b1, h1⟩ := cnt1_field s h buf _ hbuf x hf r pos k0 k1 rc kl dl hd1 hr (by omega)
    have hr2 : r + 8 ≤ pos + Spec.fieldTime (Spec.frame s.ty) s.ty.g2 9 := by unfold Spec.fieldTime; omega
    obtain ⟨a2, b2, h2⟩ := body_run s h buf hbuf x hf _ (r + 8) r (pos + Spec.fieldTime (Spec.frame s.ty) s.ty.g2 9) a1 b1
      ((rc + 1) % 256) hd2 hr2 (by omega)
    have hr3 : r + 8 + x.key.length + x.data.length ≤ pos + Spec.fieldTime (Spec.frame s.ty) s.ty.g2 9 + Spec.bodyTime s.ty x := by
      unfold Spec.bodyTime
      unfold Spec.fieldTime at hr2 ⊢
      split
      · rename_i hk; rw [hk]; simp only [List.length_nil]; omega
      · omega
    obtain ⟨t', r', a, b, rc', kl', dl', h3⟩ := ih (n + 1) (r + 8 + x.key.length + x.data.length)
      (pos + Spec.fieldTime (Spec.frame s.ty) s.ty.g2 9 + Spec.bodyTime s.ty x) a2 b2 ((rc + 1) % 256) x.key.length x.data.length
      (fun y hy => hx y (List.mem_cons_of_mem _ hy)) (by omega) hd3 hr3 (by omega)
    refine ⟨t', r', a, b, rc', kl', dl', ?_⟩
    rw [show pos + (Spec.fieldTime (Spec.frame s.ty) s.ty.g2 9 + Spec.bodyTime s.ty x + Spec.othersTime s.ty xs) =
      pos + Spec.fieldTime (Spec.frame s.ty) s.ty.g2 9 + Spec.bodyTime s.ty x + Spec.othersTime s.ty xs by omega]
    rw [flag_mod _ _ x hn] at h1
    exact (h1.trans h2 rfl rfl).trans h3 rfl rfl

/-! ### A revolution -/

theorem index_run (s : S) (h : Std s.ty) (t r k0 k1 rc kl dl : Nat) (hp : s.ty.g4 + 1 ≤ s.ty.bpt) :
    Goes (s.ty.g4 + 1) (st s .index 0 t r 0 k0 k1 rc kl dl)
      (st { s with tstart := u32 (s.tsize * s.head) } .ha 0 0 0 (s.ty.g4 + 1) 255 255 rc kl dl)
      [((Spec.frame s.ty).ha, (Spec.frame s.ty).am)] := by
  have e : [((Spec.frame s.ty).ha, (Spec.frame s.ty).am)] = [(s.ty.sync, is14 s)] := by
    rw [h.fr, h.sync]; unfold is14; split <;> simp_all
  rw [e]
  have h1 := wait s .index t r k0 k1 rc kl dl s.ty.g4 h.bpt h.g4 (by
    intro c pos hc io _
    refine ⟨{ io with ix := decide (c < 3) || io.ix }, ?_⟩
    show rdIndex _ _ _ = _
    exact if_neg (show ¬ c = s.ty.g4 by omega)) s.ty.g4 0 0 (by omega) (by omega)
  rw [Nat.zero_add] at h1
  refine h1.trans (m := [(s.ty.sync, is14 s)]) ?_ rfl rfl
  refine Goes.one fun io => tick_give io s _ .index s.ty.g4 t r s.ty.g4 k0 k1 rc kl dl _ _ (by omega) h.bpt
    (by have := h.g4; omega) ?_ (by show s.ty.g4 + 1 ≤ s.ty.bpt; omega) rfl
  intro io hio
  obtain ⟨a, b, d⟩ := io; simp only at hio; subst hio
  show rdIndex _ _ _ = _
  refine (if_pos (show s.ty.g4 = s.ty.g4 from rfl)).trans ?_
  have i : is14 (st s .index (s.ty.g4 + 1) t r (s.ty.g4 + 1) k0 k1 rc kl dl) = is14 s := rfl
  rw [i, Bool.or_false]
  rfl

/-- The home address. -/
theorem ha_field (s : S) (h : Std s.ty) (buf : List Nat) (hbuf : s.cbuf = some buf) (t r k0 k1 rc kl dl : Nat) (cyl hd : Nat)
    (rest : List Nat) (hd' : buf.drop (u32 (s.tsize * s.head)) = Spec.home cyl hd ++ rest)
    (hp : Spec.fieldTime (Spec.frame s.ty) s.ty.g4 5 ≤ s.ty.bpt - 2) :
    ∃ a b, Goes (Spec.fieldTime (Spec.frame s.ty) s.ty.g4 5) (st s .index 0 t r 0 k0 k1 rc kl dl)
      (st { s with tstart := u32 (s.tsize * s.head) } .gap1 0 5 5 (Spec.fieldTime (Spec.frame s.ty) s.ty.g4 5) a b rc kl dl)
      (Spec.flagged (Spec.frame s.ty) (Spec.frame s.ty).ha (Spec.home cyl hd)) := by
  unfold Spec.fieldTime at hp ⊢
  have h1 := index_run s h t r k0 k1 rc kl dl (by omega)
  have h2 := ha_run { s with tstart := u32 (s.tsize * s.head) } rc kl dl h.bpt buf hbuf (Spec.home cyl hd) rest (s.ty.g4 + 1) 255 255 hd' rfl
    (by show s.ty.g4 + 1 + 5 ≤ s.ty.bpt; omega)
  have h3 := ha_tail { s with tstart := u32 (s.tsize * s.head) } 5 0 (s.ty.g4 + 1 + 5) (ckRun 1 255 255 (Spec.home cyl hd)).1
    (ckRun 1 255 255 (Spec.home cyl hd)).2 rc kl dl h.bpt (by show s.ty.g4 + 1 + 5 + 4 ≤ s.ty.bpt; omega)
  rw [std_tl { s with tstart := u32 (s.tsize * s.head) } h] at h3
  refine ⟨(ckRun 1 255 255 (Spec.home cyl hd)).1, (ckRun 1 255 255 (Spec.home cyl hd)).2, ?_⟩
  rw [show s.ty.g4 + 1 + 5 + 2 + (Spec.frame s.ty).tail.length =
    s.ty.g4 + 1 + 5 + (2 + (Spec.frame s.ty).tail.length) by omega]
  refine (h1.trans h2 rfl rfl).trans h3 rfl ?_
  rw [ckRun_eq]
  simp [Spec.flagged, Spec.sum]

/-- After the last record nothing is handed over until the index. -/
theorem fin_run (s : S) (h : Std s.ty) (t r k0 k1 rc : Nat) : ∀ (n pos kl dl : Nat), pos + (n + 1) = s.ty.bpt + 1 →
    Goes (n + 1) (st s .fin 0 t r pos k0 k1 rc kl dl) (st s .index 0 t r 0 k0 k1 rc 0 0) [] := by
  intro n
  induction n with
  | zero =>
    intro pos kl dl hp
    refine Goes.one fun io => tick_quiet io s _ .fin 0 t r pos k0 k1 rc kl dl (by omega) h.bpt (by omega) ?_
    intro io _
    refine ⟨{ io with ix := true }, ?_⟩
    show rdFin _ _ = _
    unfold rdFin wrap
    have : (st s .fin (0 + 1) t r (pos + 1) k0 k1 rc kl dl).cpos ≥ (st s .fin (0 + 1) t r (pos + 1) k0 k1 rc kl dl).ty.bpt + 1 := by
      show pos + 1 ≥ s.ty.bpt + 1; omega
    simp only [if_pos this]
    rfl
  | succ n ih =>
    intro pos kl dl hp
    have h1 : Goes 1 (st s .fin 0 t r pos k0 k1 rc kl dl) (st s .fin 0 t r (pos + 1) k0 k1 rc 0 0) [] := by
      refine Goes.one fun io => tick_quiet io s _ .fin 0 t r pos k0 k1 rc kl dl (by omega) h.bpt (by omega) ?_
      intro io _
      refine ⟨io, ?_⟩
      show rdFin _ _ = _
      unfold rdFin wrap
      have : ¬ (st s .fin (0 + 1) t r (pos + 1) k0 k1 rc kl dl).cpos ≥ (st s .fin (0 + 1) t r (pos + 1) k0 k1 rc kl dl).ty.bpt + 1 := by
        show ¬ pos + 1 ≥ s.ty.bpt + 1; omega
      simp only [if_neg this]
      rfl
    exact h1.trans (ih (pos + 1) 0 0 (by omega)) (by omega) rfl

/-- One revolution. -/
theorem rev_run (s : S) (h : Std s.ty) (buf : List Nat) (hbuf : s.cbuf = some buf) (t r k0 k1 rc kl dl : Nat) (cyl hd : Nat)
    (z : Spec.Rec) (xs : List Spec.Rec) (rest : List Nat) (hz : ∀ x ∈ z :: xs, Spec.Fits x)
    (hb : buf.drop (u32 (s.tsize * s.head)) = Spec.track cyl hd (z :: xs) ++ rest) (hp : Spec.time s.ty z xs + 2 ≤ s.ty.bpt) :
    ∃ ts t' r' a b rc' kl' dl', Goes (s.ty.bpt + 1) (st s .index 0 t r 0 k0 k1 rc kl dl)
      (st { s with tstart := ts } .index 0 t' r' 0 a b rc' kl' dl')
      (Spec.stream (Spec.frame s.ty) cyl hd z xs) := by
  unfold Spec.time at hp
  have hb1 : buf.drop (u32 (s.tsize * s.head)) =
      Spec.home cyl hd ++ (Spec.count z ++ (z.key ++ z.data ++ (xs.flatMap Spec.bytes ++ (Spec.endMark ++ rest)))) := by
    rw [hb]; simp [Spec.track, Spec.bytes]
  have hb2 : buf.drop (5 + u32 (s.tsize * s.head)) =
      Spec.count z ++ (z.key ++ z.data ++ (xs.flatMap Spec.bytes ++ (Spec.endMark ++ rest))) := by
    rw [Nat.add_comm, ← List.drop_drop, hb1]; rfl
  have hb3 : buf.drop (5 + 8 + u32 (s.tsize * s.head)) = z.key ++ z.data ++ (xs.flatMap Spec.bytes ++ (Spec.endMark ++ rest)) := by
    rw [show 5 + 8 + u32 (s.tsize * s.head) = 5 + u32 (s.tsize * s.head) + 8 by omega, ← List.drop_drop, hb2]; rfl
  have hb4 : buf.drop (5 + 8 + z.key.length + z.data.length + u32 (s.tsize * s.head)) =
      xs.flatMap Spec.bytes ++ (Spec.endMark ++ rest) := by
    rw [show 5 + 8 + z.key.length + z.data.length + u32 (s.tsize * s.head) =
      5 + 8 + u32 (s.tsize * s.head) + (z.key ++ z.data).length by rw [List.length_append]; omega, ← List.drop_drop, hb3, List.drop_left]
  generalize hu : { s with tstart := u32 (s.tsize * s.head) } = u
  have hfz := hz z (List.mem_cons_self ..)
  obtain ⟨a1, b1, h1⟩ := ha_field s h buf hbuf t r k0 k1 rc kl dl cyl hd _ hb1 (by omega)
  rw [hu] at h1
  have ut : u.ty = s.ty := by rw [← hu]
  have us : u.tstart = u32 (s.tsize * s.head) := by rw [← hu]
  have ub : u.cbuf = some buf := by rw [← hu]; exact hbuf
  rw [← us] at hb2 hb3 hb4
  rw [← ut] at hp h
  have ha1 : Spec.fieldTime (Spec.frame s.ty) s.ty.g4 5 = Spec.fieldTime (Spec.frame u.ty) u.ty.g4 5 := by rw [ut]
  rw [ha1] at h1
  generalize hT1 : Spec.fieldTime (Spec.frame u.ty) u.ty.g4 5 = T1 at *
  have g1 : 8 ≤ T1 := by rw [← hT1]; unfold Spec.fieldTime; omega
  obtain ⟨a2, b2, h2⟩ := cnt0_field u h buf _ ub z hfz 5 T1 a1 b1 rc kl dl hb2 (by omega) (by omega)
  generalize hT2 : Spec.fieldTime (Spec.frame u.ty) u.ty.g1 9 = T2 at *
  have g2 : 12 ≤ T2 := by rw [← hT2]; unfold Spec.fieldTime; omega
  obtain ⟨a3, b3, h3⟩ := body_run u h buf ub z hfz _ (5 + 8) 5 (T1 + T2) a2 b2 0 hb3 (by omega) (by omega)
  have g3 : z.key.length + z.data.length ≤ Spec.bodyTime u.ty z := by
    unfold Spec.bodyTime Spec.fieldTime
    split
    · rename_i hk; rw [hk]; simp only [List.length_nil]; omega
    · omega
  obtain ⟨t4, r4, a4, b4, rc4, kl4, dl4, h4⟩ := others_run u h buf rest ub xs 1 (5 + 8 + z.key.length + z.data.length)
    (T1 + T2 + Spec.bodyTime u.ty z) a3 b3 0 z.key.length z.data.length (fun x hx => hz x (List.mem_cons_of_mem _ hx)) rfl hb4
    (by omega) (by omega)
  obtain ⟨m, hm⟩ : ∃ m, T1 + T2 + Spec.bodyTime u.ty z + Spec.othersTime u.ty xs + (m + 1) = u.ty.bpt + 1 :=
    ⟨u.ty.bpt - (T1 + T2 + Spec.bodyTime u.ty z + Spec.othersTime u.ty xs), by omega⟩
  have h5 := fin_run u h t4 r4 a4 b4 rc4 m _ kl4 dl4 hm
  refine ⟨u32 (s.tsize * s.head), t4, r4, a4, b4, rc4, 0, 0, ?_⟩
  rw [hu, ← ut]
  rw [← ut] at h1
  refine ((((h1.trans h2 rfl rfl).trans h3 rfl rfl).trans h4 rfl rfl).trans h5 (by omega) ?_)
  simp [Spec.stream]

/-- A drive at the index with a track under the head. -/
theorem revs (n : Nat) : ∀ (s : S) (_ : Std s.ty) (buf : List Nat) (_ : s.cbuf = some buf) (t r k0 k1 rc kl dl : Nat) (cyl hd : Nat)
    (z : Spec.Rec) (xs : List Spec.Rec) (rest : List Nat) (_ : ∀ x ∈ z :: xs, Spec.Fits x)
    (_ : buf.drop (u32 (s.tsize * s.head)) = Spec.track cyl hd (z :: xs) ++ rest) (_ : Spec.time s.ty z xs + 2 ≤ s.ty.bpt),
    ∃ s', Goes (n * (s.ty.bpt + 1)) (st s .index 0 t r 0 k0 k1 rc kl dl) s'
      (List.replicate n (Spec.stream (Spec.frame s.ty) cyl hd z xs)).flatten := by
  induction n with
  | zero => intros; rw [Nat.zero_mul]; exact ⟨_, Goes.refl _⟩
  | succ n ih =>
    intro s h buf hbuf t r k0 k1 rc kl dl cyl hd z xs rest hz hb hp
    obtain ⟨ts, t', r', a, b, rc', kl', dl', h1⟩ := rev_run s h buf hbuf t r k0 k1 rc kl dl cyl hd z xs rest hz hb hp
    obtain ⟨s', h2⟩ := ih { s with tstart := ts } h buf hbuf t' r' a b rc' kl' dl' cyl hd z xs rest hz hb hp
    refine ⟨s', h1.trans h2 (by rw [Nat.succ_mul, Nat.add_comm]) ?_⟩
    rw [List.replicate_succ, List.flatten_cons]

/-! ### Calls and byte times -/

theorem tick_fr {io : Io} {s s' : S} {l : List (Nat × Bool)} (h : tick io s = .ok (s', l)) : s'.ty = s.ty ∧ s'.step = 0 := by
  unfold tick at h
  obtain ⟨x, h1, h2⟩ := bind_inv h
  have e := Res.ok.inj h2
  have e1 : x.1 = s' := congrArg Prod.fst e
  obtain ⟨⟨s2, o, io2⟩, h3, h4⟩ := bind_inv h1
  have k := rdSwitch_fr h3
  have k1 : s2.ty = s.ty := by
    refine (congrArg Prod.fst k.1).trans ?_
    unfold rdIx; split <;> rfl
  have k2 : s2.step = 0 := by
    refine (congrArg Prod.snd k.2).trans ?_
    unfold rdIx; split <;> rfl
  subst e1
  cases o with
  | some v => cases h4; exact ⟨k1, k2⟩
  | none =>
    have w := wrap_fr s2 io2
    cases h4
    exact ⟨(congrArg Prod.fst w.1).trans k1, (congrArg Prod.snd w.2).trans k2⟩

theorem tick_clock (io : Io) (s : S) (d : Nat) : tick io { s with step := d } = tick io s := by
  have e : rdIx { s with step := d } = rdIx s := rfl
  unfold tick
  rw [e]

/-- The drive answers every `rate + 1`-th call. -/
theorem calls_clock : ∀ (m d : Nat) (s : S) (io : Nat → Io), s.step = 0 → d + m = s.ty.rate →
    calls io (m + 1) { s with step := d } = tick (io m) s := by
  intro m
  induction m with
  | zero =>
    intro d s io hs hd
    show (readByte { s with step := d } (io 0)).bind _ = _
    rw [← tick_clock (io 0) s d]
    unfold readByte tick
    rw [if_neg (show ¬ d < s.ty.rate by omega)]
    show (rdTick (rdIx { s with step := d }) _).bind _ = _
    cases rdTick (rdIx { s with step := d }) (if s.cpos ≥ s.ty.bpt + 1 then { io 0 with am := false, ix := true } else { io 0 with am := false }) with
    | ok x =>
      show Res.ok (x.1, _ ++ []) = _
      rw [List.append_nil]
      rfl
    | oob => rfl
    | fuel => rfl
  | succ m ih =>
    intro d s io hs hd
    show (readByte { s with step := d } (io 0)).bind _ = _
    unfold readByte
    rw [if_pos (show d < s.ty.rate by omega), bk]
    have := ih (d + 1) s (fun k => io (k + 1)) hs (by omega)
    show (calls (fun k => io (k + 1)) (m + 1) { s with step := d + 1 }).bind _ = _
    rw [this]
    cases tick (io (m + 1)) s with
    | ok x => rfl
    | oob => rfl
    | fuel => rfl

theorem calls_add (a b : Nat) : ∀ (io : Nat → Io) (s : S), calls io (a + b) s =
    (calls io a s).bind fun x => (calls (fun k => io (k + a)) b x.1).bind fun y => .ok (y.1, x.2 ++ y.2) := by
  induction a with
  | zero =>
    intro io s
    rw [Nat.zero_add]
    show _ = (calls io b s).bind fun y => .ok (y.1, [] ++ y.2)
    cases calls io b s <;> rfl
  | succ a ih =>
    intro io s
    rw [Nat.succ_add]
    show (readByte s (io 0)).bind _ = ((readByte s (io 0)).bind _).bind _
    cases readByte s (io 0) with
    | ok x =>
      simp only [Res.bind]
      rw [ih]
      cases calls (fun k => io (k + 1)) a x.1 with
      | ok y =>
        simp only [Res.bind]
        rw [show (fun k => io (k + a + 1)) = (fun k => io (k + (a + 1))) from rfl]
        cases calls (fun k => io (k + (a + 1))) b y.1 with
        | ok z => simp [List.append_assoc]
        | oob => rfl
        | fuel => rfl
      | oob => rfl
      | fuel => rfl
    | oob => rfl
    | fuel => rfl

theorem calls_ticks (rate : Nat) : ∀ (n : Nat) (s s' : S) (l : List (Nat × Bool)) (io : Nat → Io), s.step = 0 → s.ty.rate = rate →
    ticks (fun k => io (k * (rate + 1) + rate)) n s = .ok (s', l) → calls io (n * (rate + 1)) s = .ok (s', l) := by
  intro n
  induction n with
  | zero => intro s s' l io _ _ h; rw [Nat.zero_mul]; exact h
  | succ n ih =>
    intro s s' l io hs hr h
    obtain ⟨x, h1, h2⟩ := bind_inv h
    obtain ⟨y, h3, h4⟩ := bind_inv h2
    rw [Nat.succ_mul, Nat.add_comm, calls_add]
    have c := calls_clock rate 0 s io hs (by omega)
    have e : { s with step := 0 } = s := by rw [← hs]
    rw [e] at c
    simp only [Nat.zero_mul, Nat.zero_add] at h1
    rw [c, h1, bk]
    have f := tick_fr (l := x.2) h1
    have k := ih x.1 y.1 y.2 (fun k => io (k + (rate + 1))) f.2 (by rw [f.1, hr]) (by
      rw [← h3]
      congr 1
      funext k
      show _ = io ((k + 1) * (rate + 1) + rate)
      rw [Nat.succ_mul]
      congr 1
      omega)
    rw [k, bk]
    exact h4

theorem tick_dirty (s : S) (i : Io) : tick i { s with dirty := true } = tick i s := by
  unfold tick rdTick rdIx
  by_cases hq : s.cpos ≥ s.ty.bpt + 1
  · simp only [if_pos hq]
  · simp only [if_neg hq]

theorem calls_of_goes (s s' : S) (n : Nat) (l : List (Nat × Bool)) (hstep : s.step = 0) (hn : 0 < n)
    (h : Goes n { s with dirty := true } s' l) (io : Nat → Io) : calls io (n * (s.ty.rate + 1)) s = .ok (s', l) := by
  refine calls_ticks s.ty.rate _ s s' _ io hstep rfl ?_
  rw [← h (fun k => io (k * (s.ty.rate + 1) + s.ty.rate))]
  obtain ⟨m, rfl⟩ : ∃ m, n = m + 1 := ⟨n - 1, by omega⟩
  show (tick _ s).bind _ = (tick _ { s with dirty := true }).bind _
  rw [tick_dirty]

/-- **C91.**  A drive that stands at the index with a track under the head hands over, in every revolution, exactly what the
specification says: the home address and all the records of the track, in order, with their marks and check bytes, and
nothing else, whatever the control unit's registers hold and however many revolutions it reads.  A revolution takes
`bpt + 1` byte times of `rate + 1` calls. -/
theorem C91_reading_track (s : S) (ht : s.ty ∈ diskTypes) (hst : s.state = .index) (hc : s.count = 0) (hpos : s.cpos = 0)
    (hstep : s.step = 0) (ham : s.ams = false) (buf rest : List Nat) (hbuf : s.cbuf = some buf) (cyl hd : Nat) (z : Spec.Rec)
    (xs : List Spec.Rec) (hu : s.tsize * s.head < 2 ^ 32)
    (hb : buf.drop (s.tsize * s.head) = Spec.track cyl hd (z :: xs) ++ rest) (hz : ∀ x ∈ z :: xs, Spec.Fits x)
    (hp : Spec.time s.ty z xs + 2 ≤ s.ty.bpt) (n : Nat) (io : Nat → Io) :
    ∃ s', calls io (n * (s.ty.bpt + 1) * (s.ty.rate + 1)) s =
      .ok (s', (List.replicate n (Spec.stream (Spec.frame s.ty) cyl hd z xs)).flatten) := by
  have e32 : u32 (s.tsize * s.head) = s.tsize * s.head := Nat.mod_eq_of_lt hu
  rw [← e32] at hb
  obtain ⟨s', h⟩ := revs n s (std _ ht) buf hbuf s.tpos s.rpos s.ck0 s.ck1 s.rcnt s.klen s.dlen cyl hd z xs rest hz hb hp
  have e : st s .index 0 s.tpos s.rpos 0 s.ck0 s.ck1 s.rcnt s.klen s.dlen = { s with dirty := true } := by
    obtain ⟨⟩ := s
    simp only at hst hc hpos hstep ham
    subst hst hc hpos hstep ham
    rfl
  rw [e] at h
  cases n with
  | zero => refine ⟨s, ?_⟩; rw [Nat.zero_mul, Nat.zero_mul]; rfl
  | succ n =>
    exact ⟨s', calls_of_goes s s' _ _ hstep (Nat.mul_pos (by omega) (by omega)) h io⟩

/-- Any head of a freshly formatted drive as the hypotheses of C91 and C93 need it. -/
theorem fresh_track (t : DiskType) (ht : t ∈ diskTypes) (file : List Nat) (hd : Nat) (hh : hd < t.heads) :
    ∃ s b0 rest, attach (fresh t) file true = .ok s ∧ s.ty = t ∧ s.state = .index ∧ s.count = 0 ∧ s.cpos = 0 ∧ s.step = 0 ∧
      s.ams = false ∧ s.cbuf = some b0 ∧ s.tsize = trackSize t ∧ trackSize t * hd < 2 ^ 32 ∧
      b0.drop (trackSize t * hd) = Spec.track 0 hd (Spec.r0 0 hd :: (freshRecs true [] 0 hd).tail) ++ rest ∧
      (∀ x ∈ Spec.r0 0 hd :: (freshRecs true [] 0 hd).tail, Spec.Fits x) ∧
      Spec.time t (Spec.r0 0 hd) (freshRecs true [] 0 hd).tail + 2 ≤ t.bpt := by
  obtain ⟨r, hr⟩ := attach_format (fresh t) file ht rfl (by intro c hc; cases hc) (Nat.zero_le _)
  have h : ∃ n, nameBack (volName8 (fresh t).label) = .ok n := by
    refine ⟨[0x31, 0x31, 0x31, 0x31, 0x31, 0x31, 0x20, 0], ?_⟩
    show nameBack (volName8 []) = _
    decide +kernel
  obtain ⟨nm, h⟩ := h
  rw [h, bk] at hr
  have sn := sane t ht
  have hx : freshRecs true [] 0 hd = Spec.r0 0 hd :: (freshRecs true [] 0 hd).tail := by
    unfold freshRecs
    split
    · next h => obtain ⟨-, rfl, -⟩ := h; rfl
    · rfl
  obtain ⟨r2, h2⟩ := slice_range (freshTrack true [] (trackSize t) 0) (trackSize t) t.heads hd []
    (fun x _ => freshTrack_length _ _ _ _ _ sn.1) hh
  have hu : trackSize t * hd < 2 ^ 32 := by
    have : trackSize t * hd ≤ trackSize t * t.heads := Nat.mul_le_mul_left _ (by omega)
    omega
  have hfit : ∀ x ∈ freshRecs true [] 0 hd, Spec.Fits x := by
    have := sn.2.2.1
    unfold freshRecs
    split
    · intro x hx
      simp only [List.mem_cons, List.not_mem_nil, or_false] at hx
      rcases hx with e | e | e | e <;> subst e <;>
        exact ⟨by decide, by decide, by decide, by decide +kernel, by decide +kernel⟩
    · intro x hx
      simp only [List.mem_cons, List.not_mem_nil, or_false] at hx
      rcases hx with e | e <;> subst e <;>
        exact ⟨by show 0 < 65536; decide, by show hd < 65536; omega, by show ¬ (0 = 65535 ∧ hd = 65535); omega, by show 0 < 256; decide, by first | (show 0 < 65536; decide) | (show (List.replicate 8 0).length < 65536; decide)⟩
  have htime : Spec.time t (Spec.r0 0 hd) (freshRecs true [] 0 hd).tail + 2 ≤ t.bpt := by
    unfold freshRecs
    split
    · have : ∀ t ∈ diskTypes, Spec.time t (Spec.r0 0 0) (freshRecs true [] 0 0).tail + 2 ≤ t.bpt := by decide +kernel
      exact this t ht
    · have : ∀ t ∈ diskTypes, Spec.time t (Spec.r0 0 0) [Spec.r1 0 0] + 2 ≤ t.bpt := by decide +kernel
      exact this t ht
  refine ⟨_, freshCyl true [] (trackSize t) t.heads 0,
    List.replicate (trackSize t - (Spec.track 0 hd (freshRecs true [] 0 hd)).length) 0 ++ r2, hr, rfl, rfl, rfl, rfl, rfl, rfl, rfl, rfl, hu, ?_,
    by rw [← hx]; exact hfit, htime⟩
  rw [← hx]
  show (freshCyl true [] (trackSize t) t.heads 0).drop (trackSize t * hd) = _
  rw [Nat.mul_comm, ← List.append_nil (freshCyl true [] (trackSize t) t.heads 0)]
  unfold freshCyl
  rw [h2, freshTrack]
  simp only [List.append_assoc]

/-- The hypotheses of `C91_reading_track` hold for every head of every freshly formatted and attached drive: the heads of
cylinder 0 hand over their home address, record zero and record one, head 0 the two loader records and the volume record. -/
theorem C91_fresh_drive (t : DiskType) (ht : t ∈ diskTypes) (file : List Nat) (hd : Nat) (hh : hd < t.heads) (n : Nat) (io : Nat → Io) :
    ∃ s s' xs, attach (fresh t) file true = .ok s ∧ (hd ≠ 0 → xs = [Spec.r1 0 hd]) ∧ (hd = 0 → xs.length = 3) ∧
      calls io (n * (t.bpt + 1) * (t.rate + 1)) { s with head := hd } =
        .ok (s', (List.replicate n (Spec.stream (Spec.frame t) 0 hd (Spec.r0 0 hd) xs)).flatten) := by
  obtain ⟨s, b0, rest, hr, hty, h1, h2, h3, h4, h5, hb, hts, hu, hd', hfit, htime⟩ := fresh_track t ht file hd hh
  obtain ⟨s', key⟩ := C91_reading_track { s with head := hd } (by show s.ty ∈ _; rw [hty]; exact ht) h1 h2 h3 h4 h5 b0 rest hb 0 hd
    (Spec.r0 0 hd) (freshRecs true [] 0 hd).tail (by show s.tsize * hd < _; rw [hts]; exact hu)
    (by show b0.drop (s.tsize * hd) = _; rw [hts]; exact hd') hfit (by show Spec.time s.ty _ _ + 2 ≤ s.ty.bpt; rw [hty]; exact htime) n io
  refine ⟨s, s', (freshRecs true [] 0 hd).tail, hr, ?_, ?_, ?_⟩
  · intro h0
    unfold freshRecs
    rw [if_neg (fun h => h0 h.2.1)]; rfl
  · intro h0
    unfold freshRecs
    rw [if_pos ⟨rfl, h0, rfl⟩]; rfl
  · subst hty
    exact key

/-- A record of cylinder 5 that overflows to the next track: the flag byte shows the overflow bit, the count field and its
check bytes do not. -/
example : Spec.Fits ⟨32773, 2, 1, [], [7]⟩ ∧
    Spec.others (Spec.frame ⟨"2311", 203, 10, 3717, 0x11, 36, 36, 36, 6, 13⟩) 1 [⟨32773, 2, 1, [], [7]⟩] =
      [6, 0xc0, 0, 5, 0, 2, 1, 0, 0, 1, 0xfe, 0x39, 6, 7, 0xf8, 0xff].map (·, false) := by
  refine ⟨⟨by decide, by decide, by decide, by decide, by decide⟩, by decide +kernel⟩

end Verif.Dasd
