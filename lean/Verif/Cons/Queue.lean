import Verif.Cons.Model
import Verif.Bus.Spec
/-!
# Typing on the console (C50, C51, C52)
-/
namespace Verif.Cons
open Verif.Bus
open Verif.Card (Res)

/-! ## Specification -/

namespace Spec

/-- What a terminal sends: characters, and telnet protocol elements. -/
inductive Tok where
  /-- a byte that is not the escape -/
  | data (b : Nat)
  /-- the escape doubled: the byte 255 itself -/
  | escaped
  /-- break: escape, 243 -/
  | brk
  /-- WILL, WONT, DO or DONT (251 to 254) and an option -/
  | neg (cmd opt : Nat)
deriving DecidableEq, Repr

def Tok.Ok : Tok → Prop
  | .data b => b < 255
  | .neg c _ => c = 251 ∨ c = 252 ∨ c = 253 ∨ c = 254
  | _ => True

/-- The bytes of an element on the line. -/
def Tok.bytes : Tok → List Nat
  | .data b => [b]
  | .escaped => [255, 255]
  | .brk => [255, 243]
  | .neg c o => [255, c, o]

/-- The character it stands for, if any. -/
def Tok.char : Tok → Option Nat
  | .data b => some b
  | .escaped => some 255
  | _ => none

def stream (ts : List Tok) : List Nat := ts.flatMap Tok.bytes

def chars (ts : List Tok) : List Nat := ts.filterMap Tok.char

/-- Keys with a meaning of their own: form feed, escape (attention), control-C (cancel) and return (end of block). -/
def special (c : Nat) : Bool := c = 12 || c = 27 || c = 3 || c = 13

/-- The character as the CPU gets it: translated, with odd parity. -/
def ebcdic (c : Nat) : Nat := Bus.Spec.byte (asciiToEbcdicTab.getD c 0)

end Spec

/-- What can happen at the terminal while input is enabled. -/
inductive Op where
  /-- the terminal sends a packet -/
  | packet (bs : List Nat)
  /-- the CPU takes a character -/
  | read
  /-- the CPU sends a character -/
  | write (v : Nat)
  /-- the thread sends what is to be sent -/
  | flush
  /-- the CPU gives signals (bits 0 to 6) -/
  | signal (tags : Nat)
  /-- another terminal calls -/
  | caller
deriving Repr

/-- One of them: the terminal and the character the CPU got. -/
def step (t : T) : Op → Res (T × Option Nat)
  | .packet bs => (packet t bs).bind (fun t => .ok (t, none))
  | .read => inp t
  | .write v => (out t v).bind (fun t => .ok (t, none))
  | .flush => .ok (flush t, none)
  | .signal tags => .ok ((func t tags).1, none)
  | .caller => .ok (connect t, none)

/-- A history: the terminal and all characters the CPU got. -/
def run : T → List Op → Res (T × List Nat)
  | t, [] => .ok (t, [])
  | t, o :: os => (step t o).bind (fun r => (run r.1 os).bind (fun q => .ok (q.1, r.2.toList ++ q.2)))

/-- The bytes the terminal sent. -/
def Spec.received : List Op → List Nat
  | [] => []
  | .packet bs :: os => bs ++ received os
  | _ :: os => received os

/-- The history has no reset signal and no end of connection. -/
def Spec.Open : Op → Prop
  | .packet bs => bs ≠ []
  | .signal tags => tags.testBit 0 = false
  | _ => True

/-- Every packet finds room: fewer than 256 characters wait, also when it is stored. -/
def Spec.Room : T → List Op → Prop
  | _, [] => True
  | t, o :: os =>
    (match o with
      | .packet bs => t.inLen + bs.length ≤ 256
      | _ => True) ∧ ∀ r, step t o = .ok r → Room r.1 os

/-! ## The ring buffer is a queue -/

structure Wf (t : T) : Prop where
  inP : t.inPtr < 256
  outP : t.outPtr < 256
  len : t.inLen ≤ 256
  ring : t.inPtr = (t.outPtr + t.inLen) % 256

def pending (t : T) : List Nat := (List.range t.inLen).map (fun i => t.key ((t.outPtr + i) % 256))

theorem pending_length (t : T) : (pending t).length = t.inLen := by simp [pending]

/-- A terminal that is only changed in its other fields. -/
theorem pending_congr {t t' : T} (h1 : t'.key = t.key) (h2 : t'.outPtr = t.outPtr) (h3 : t'.inLen = t.inLen) : pending t' = pending t := by
  unfold pending; rw [h1, h2, h3]

theorem pushChar_spec (t : T) (c : Nat) (w : Wf t) (hf : t.inFlg = true) (hl : t.inLen < 256) :
    ∃ t', pushChar t c = .ok t' ∧ Wf t' ∧ t'.inFlg = true ∧ t'.cons = t.cons ∧ t'.tns = t.tns ∧ t'.inLen ≤ t.inLen + 1 ∧
      pending t' = pending t ++ (if Spec.special c then [] else [c]) := by
  unfold pushChar
  by_cases h1 : c = 12
  · exact ⟨t, by rw [if_pos h1], w, hf, rfl, rfl, by omega, by simp [Spec.special, h1]⟩
  by_cases h2 : c = 27
  · exact ⟨{ t with attn := true }, by rw [if_neg h1, if_pos h2], ⟨w.inP, w.outP, w.len, w.ring⟩, hf, rfl, rfl, by show t.inLen ≤ _; omega, (pending_congr (t := t) rfl rfl rfl).trans (by simp [Spec.special, h2])⟩
  by_cases h3 : c = 3
  · exact ⟨{ t with cancel := true }, by rw [if_neg h1, if_neg h2, if_pos hf, if_pos h3], ⟨w.inP, w.outP, w.len, w.ring⟩, hf, rfl, rfl, by show t.inLen ≤ _; omega, (pending_congr (t := t) rfl rfl rfl).trans (by simp [Spec.special, h3])⟩
  by_cases h4 : c = 13
  · exact ⟨{ t with eob := true, outCr := true }, by rw [if_neg h1, if_neg h2, if_pos hf, if_neg h3, if_pos h4], ⟨w.inP, w.outP, w.len, w.ring⟩, hf, rfl, rfl, by show t.inLen ≤ _; omega, (pending_congr (t := t) rfl rfl rfl).trans (by simp [Spec.special, h4])⟩
  refine ⟨{ t with key := fun i => if i = t.inPtr then c else t.key i, inPtr := (t.inPtr + 1) % 256, inLen := t.inLen + 1, sent := t.sent ++ [c] }, by rw [if_neg h1, if_neg h2, if_pos hf, if_neg h3, if_neg h4, if_pos w.inP], ⟨Nat.mod_lt _ (by decide), w.outP, by show t.inLen + 1 ≤ 256; omega, ?_⟩, hf, rfl, rfl, Nat.le_refl _, ?_⟩
  · show (t.inPtr + 1) % 256 = (t.outPtr + (t.inLen + 1)) % 256
    have := w.ring
    omega
  · have hs : Spec.special c = false := by simp [Spec.special, h1, h2, h3, h4]
    rw [hs]
    show (List.range (t.inLen + 1)).map (fun i => if (t.outPtr + i) % 256 = t.inPtr then c else t.key ((t.outPtr + i) % 256)) = _
    rw [List.range_succ, List.map_append]
    congr 1
    · apply List.map_congr_left
      intro i hi
      have hi := List.mem_range.mp hi
      have := w.ring
      have := w.outP
      rw [if_neg (by omega)]
    · simp [w.ring]

/-- Reading takes the first character. -/
theorem inp_spec (t : T) (w : Wf t) (hf : t.inFlg = true) (c : Nat) (cs : List Nat) (hp : pending t = c :: cs) (hc : c < 128) :
    ∃ t', inp t = .ok (t', some (Spec.ebcdic c)) ∧ Wf t' ∧ t'.inFlg = true ∧ t'.cons = t.cons ∧ t'.tns = t.tns ∧ pending t' = cs := by
  have hl : t.inLen = cs.length + 1 := by rw [← pending_length, hp]; rfl
  have hk : t.key t.outPtr = c := by
    have : (pending t)[0]? = some c := by rw [hp]; rfl
    unfold pending at this
    rw [List.getElem?_map, List.getElem?_range (by omega)] at this
    simpa [Nat.mod_eq_of_lt w.outP] using this
  have tab : ∀ c : Fin 128, ∃ e, Xlat.asciiToEbcdic c = some e ∧ asciiToEbcdicTab.getD c 0 = e ∧ e < 256 := by
    have : ∀ c : Fin 128, (Xlat.asciiToEbcdic c).isSome ∧ asciiToEbcdicTab.getD c 0 = (Xlat.asciiToEbcdic c).getD 0 ∧ (Xlat.asciiToEbcdic c).getD 0 < 256 := by decide +kernel
    intro c
    obtain ⟨h1, h2, h3⟩ := this c
    cases h : Xlat.asciiToEbcdic c with
    | none => rw [h] at h1; cases h1
    | some e => rw [h] at h2 h3; exact ⟨e, rfl, h2, h3⟩
  obtain ⟨e, he, he', hlt⟩ := tab ⟨c, hc⟩
  refine ⟨{ t with outPtr := (t.outPtr + 1) % 256, inLen := t.inLen - 1 }, ?_, ⟨w.inP, Nat.mod_lt _ (by decide), ?_, ?_⟩, hf, rfl, rfl, ?_⟩
  · unfold inp
    rw [if_pos ⟨hf, by omega⟩, if_pos w.outP, hk, Nat.mod_eq_of_lt (by omega)]
    have he2 : Xlat.asciiToEbcdic c = some e := he
    rw [he2]
    show (withPar e).bind _ = _
    rw [withPar_ok e hlt]
    show Res.ok (_, some (Spec.byte e)) = _
    have : asciiToEbcdicTab.getD c 0 = e := he'
    rw [Spec.ebcdic, this]
  · show t.inLen - 1 ≤ 256
    have := w.len; omega
  · show t.inPtr = ((t.outPtr + 1) % 256 + (t.inLen - 1)) % 256
    have := w.ring; omega
  · show (List.range (t.inLen - 1)).map (fun i => t.key (((t.outPtr + 1) % 256 + i) % 256)) = cs
    have h2 : pending t = t.key t.outPtr :: (List.range (t.inLen - 1)).map (fun i => t.key (((t.outPtr + 1) % 256 + i) % 256)) := by
      unfold pending
      rw [show t.inLen = (t.inLen - 1) + 1 by omega, List.range_succ_eq_map, List.map_cons, List.map_map]
      congr 1
      · simp [Nat.mod_eq_of_lt w.outP]
      · apply List.map_congr_left
        intro i _
        show t.key ((t.outPtr + (i + 1)) % 256) = _
        congr 1
        omega
    rw [h2] at hp
    exact (List.cons.inj hp).2

/-! ## The telnet filter -/

/-- What the filter passes on, and its state afterwards. -/
def filt : TState → List Nat → List Nat × TState
  | s, [] => ([], s)
  | .norm, c :: cs => if c = 255 then filt .iac cs else (c :: (filt .norm cs).1, (filt .norm cs).2)
  | .iac, c :: cs =>
    if c = 255 then (c :: (filt .norm cs).1, (filt .norm cs).2)
    else if c = 243 then filt .norm cs
    else if c = 251 then filt .will cs
    else if c = 252 then filt .wont cs
    else filt .skip cs
  | .will, _ :: cs => filt .norm cs
  | .wont, _ :: cs => filt .norm cs
  | .skip, _ :: cs => filt .norm cs

theorem filt_append (s : TState) (as bs : List Nat) :
    filt s (as ++ bs) = ((filt s as).1 ++ (filt (filt s as).2 bs).1, (filt (filt s as).2 bs).2) := by
  induction as generalizing s with
  | nil => simp [filt]
  | cons c cs ih =>
    cases s <;> simp only [List.cons_append, filt, ih]
    · split <;> rfl
    · repeat' split
      all_goals rfl

theorem filt_tok (k : Spec.Tok) (hk : k.Ok) : filt .norm k.bytes = (k.char.toList, .norm) := by
  cases k with
  | data b =>
    have : b ≠ 255 := by have : b < 255 := hk; omega
    simp [Spec.Tok.bytes, Spec.Tok.char, filt, this]
  | escaped => simp [Spec.Tok.bytes, Spec.Tok.char, filt]
  | brk => simp [Spec.Tok.bytes, Spec.Tok.char, filt]
  | neg c o =>
    rcases hk with h | h | h | h <;> subst h <;> simp [Spec.Tok.bytes, Spec.Tok.char, filt]

theorem filt_stream (ts : List Spec.Tok) (hk : ∀ k ∈ ts, k.Ok) : filt .norm (Spec.stream ts) = (Spec.chars ts, .norm) := by
  induction ts with
  | nil => rfl
  | cons k ks ih =>
    rw [Spec.stream, List.flatMap_cons, filt_append, filt_tok k (hk k List.mem_cons_self)]
    have := ih (fun k h => hk k (List.mem_cons_of_mem _ h))
    rw [Spec.stream] at this
    simp only [this]
    cases h : k.char <;> simp [Spec.chars, h]

/-- Characters that become pending. -/
def kept (cs : List Nat) : List Nat := cs.filter (fun c => !Spec.special c)

theorem kept_append (a b : List Nat) : kept (a ++ b) = kept a ++ kept b := List.filter_append ..

theorem telnet_spec (t : T) (c : Nat) (w : Wf t) (hf : t.inFlg = true) (hl : t.inLen < 256) :
    ∃ t', telnet t c = .ok t' ∧ Wf t' ∧ t'.inFlg = true ∧ t'.cons = t.cons ∧ t'.tns = (filt t.tns [c]).2 ∧ t'.inLen ≤ t.inLen + 1 ∧
      pending t' = pending t ++ kept (filt t.tns [c]).1 := by
  have keep : ∀ n, Wf { t with tns := n } := fun n => ⟨w.inP, w.outP, w.len, w.ring⟩
  have one : (if Spec.special c then [] else [c]) = kept [c] := by
    unfold kept; cases h : Spec.special c <;> simp [h]
  obtain ⟨t', p1, p2, p3, p4, p5, p6, p7⟩ := pushChar_spec t c w hf hl
  rw [one] at p7
  have nothing : ∀ n, (filt t.tns [c]) = ([], n) → telnet t c = .ok { t with tns := n } → ∃ t', telnet t c = .ok t' ∧ Wf t' ∧ t'.inFlg = true ∧ t'.cons = t.cons ∧ t'.tns = (filt t.tns [c]).2 ∧ t'.inLen ≤ t.inLen + 1 ∧
      pending t' = pending t ++ kept (filt t.tns [c]).1 := by
    intro n h1 h2
    rw [h1]
    exact ⟨_, h2, keep n, hf, rfl, rfl, Nat.le_succ _, (pending_congr (t := t) rfl rfl rfl).trans (by simp [kept])⟩
  cases hs : t.tns
  · by_cases hc : c = 255
    · rw [← hs]; exact nothing .iac (by rw [hs]; simp [filt, hc]) (by simp [telnet, hs, hc])
    · refine ⟨t', by simp only [telnet, hs]; rw [if_neg hc, p1], p2, p3, p4, ?_, p6, ?_⟩
      · rw [p5, hs]; simp [filt, hc]
      · rw [p7]; simp [filt, hc]
  · by_cases hc : c = 255
    · refine ⟨{ t' with tns := .norm }, by simp only [telnet, hs]; rw [if_pos hc, p1]; rfl, ⟨p2.inP, p2.outP, p2.len, p2.ring⟩, p3, p4, ?_, p6, ?_⟩
      · simp [filt, hc]
      · exact (pending_congr (t := t') rfl rfl rfl).trans (by rw [p7]; simp [filt, hc])
    · rw [← hs]
      by_cases h1 : c = 243
      · exact nothing .norm (by rw [hs]; simp [filt, h1]) (by simp [telnet, hs, h1])
      by_cases h2 : c = 251
      · exact nothing .will (by rw [hs]; simp [filt, h2]) (by simp [telnet, hs, h2])
      by_cases h3 : c = 252
      · exact nothing .wont (by rw [hs]; simp [filt, h3]) (by simp [telnet, hs, h3])
      · exact nothing .skip (by rw [hs]; simp [filt, h1, h2, h3, hc]) (by simp [telnet, hs, h1, h2, h3, hc])
  all_goals
    rw [← hs]; exact nothing .norm (by rw [hs]; simp [filt]) (by simp [telnet, hs])

theorem packetLoop_spec (bs : List Nat) (t : T) (w : Wf t) (hf : t.inFlg = true) (hl : t.inLen + bs.length ≤ 256) :
    ∃ t', packetLoop t bs = .ok t' ∧ Wf t' ∧ t'.inFlg = true ∧ t'.cons = t.cons ∧ t'.tns = (filt t.tns bs).2 ∧
      pending t' = pending t ++ kept (filt t.tns bs).1 := by
  induction bs generalizing t with
  | nil => exact ⟨t, rfl, w, hf, rfl, rfl, by simp [filt, kept]⟩
  | cons c cs ih =>
    have hlen : t.inLen + (cs.length + 1) ≤ 256 := hl
    obtain ⟨t1, a1, a2, a3, a4, a5, a6, a7⟩ := telnet_spec t c w hf (by omega)
    obtain ⟨t2, b1, b2, b3, b4, b5, b6⟩ := ih t1 a2 a3 (by omega)
    have := filt_append t.tns [c] cs
    rw [List.singleton_append] at this
    refine ⟨t2, ?_, b2, b3, b4.trans a4, ?_, ?_⟩
    · rw [packetLoop, if_pos (by omega), a1]; exact b1
    · rw [b5, a5, this]
    · rw [b6, a7, a5, this, kept_append, List.append_assoc]

/-! ## Histories -/

theorem connect_open (t : T) (h : t.cons = true) : connect t = t := by simp [connect, h]

theorem func_spec (t : T) (tags : Nat) (h0 : tags.testBit 0 = false) (w : Wf t) (hf : t.inFlg = true) :
    Wf (func t tags).1 ∧ (func t tags).1.inFlg = true ∧ (func t tags).1.cons = t.cons ∧ (func t tags).1.tns = t.tns ∧ pending (func t tags).1 = pending t := by
  have hz : tst tags 0x01 = false := by
    have : (tags &&& 1) = tags % 2 := Nat.and_one_is_mod tags
    have h1 : tags % 2 = 0 := by
      rw [Nat.testBit_eq_decide_div_mod_eq] at h0
      simp at h0
      omega
    simp [tst, this, h1]
  unfold func signals
  simp only [hz]
  have base : ∀ t' : T, t'.key = t.key → t'.inPtr = t.inPtr → t'.outPtr = t.outPtr → t'.inLen = t.inLen → t'.inFlg = true → t'.cons = t.cons → t'.tns = t.tns →
      Wf t' ∧ t'.inFlg = true ∧ t'.cons = t.cons ∧ t'.tns = t.tns ∧ pending t' = pending t := by
    intro t' k1 k2 k3 k4 k5 k6 k7
    exact ⟨⟨by rw [k2]; exact w.inP, by rw [k3]; exact w.outP, by rw [k4]; exact w.len, by rw [k2, k3, k4]; exact w.ring⟩, k5, k6, k7, pending_congr k1 k3 k4⟩
  simp only [Bool.false_eq_true, if_false]
  repeat' split
  all_goals exact base _ rfl rfl rfl rfl (by first | rfl | exact hf) rfl rfl

theorem step_spec (t : T) (o : Op) (os : List Op) (w : Wf t) (hf : t.inFlg = true) (hc : t.cons = true) (ho : Spec.Open o) (hr : Spec.Room t (o :: os))
    (ha : ∀ c ∈ pending t ++ kept (filt t.tns (Spec.received [o])).1, c < 128) :
    ∃ r, step t o = .ok r ∧ Wf r.1 ∧ r.1.inFlg = true ∧ r.1.cons = true ∧ r.1.tns = (filt t.tns (Spec.received [o])).2 ∧
      ∃ d, r.2.toList = d.map Spec.ebcdic ∧ d ++ pending r.1 = pending t ++ kept (filt t.tns (Spec.received [o])).1 := by
  cases o with
  | packet bs =>
    have hlen : t.inLen + bs.length ≤ 256 := hr.1
    obtain ⟨t', a1, a2, a3, a4, a5, a6⟩ := packetLoop_spec bs t w hf hlen
    have hne : bs ≠ [] := ho
    have : packet t bs = .ok t' := by
      unfold packet
      rw [if_neg (by simp [hc]), if_neg hne, List.take_of_length_le (by omega)]
      exact a1
    have hrec : Spec.received [.packet bs] = bs := by simp [Spec.received]
    rw [hrec]
    exact ⟨(t', none), by simp only [step]; rw [this]; rfl, a2, a3, a4.trans hc, a5, [], rfl, a6⟩
  | read =>
    have hrec : filt t.tns (Spec.received [.read]) = ([], t.tns) := by cases t.tns <;> rfl
    rw [hrec] at ha ⊢
    simp only [kept, List.filter_nil, List.append_nil] at ha ⊢
    cases hp : pending t with
    | nil =>
      have hl : t.inLen = 0 := by rw [← pending_length, hp]; rfl
      refine ⟨(t, none), ?_, w, hf, hc, rfl, [], rfl, by rw [hp]; rfl⟩
      show inp t = _
      unfold inp
      rw [if_neg (by omega)]
    | cons c cs =>
      obtain ⟨t', a1, a2, a3, a4, a5, a6⟩ := inp_spec t w hf c cs hp (ha c (by rw [hp]; exact List.mem_cons_self))
      exact ⟨(t', some _), a1, a2, a3, a4.trans hc, a5, [c], rfl, by rw [a6]; rfl⟩
  | write v =>
    have hrec : filt t.tns (Spec.received [.write v]) = ([], t.tns) := by cases t.tns <;> rfl
    rw [hrec]
    have tab : ∀ v : Fin 256, (Xlat.ebcdicToAscii v).isSome := by decide +kernel
    have h1 := tab ⟨v % 256, Nat.mod_lt _ (by decide)⟩
    cases he : Xlat.ebcdicToAscii (v % 256) with
    | none => rw [he] at h1; cases h1
    | some e =>
      refine ⟨({ t with outBuf := e, outFlg := true }, none), ?_, ⟨w.inP, w.outP, w.len, w.ring⟩, hf, hc, rfl, [], rfl, by simp only [kept, List.filter_nil, List.append_nil]; exact pending_congr rfl rfl rfl⟩
      simp [step, out, he, Card.look, Res.bind]
  | flush =>
    have hrec : filt t.tns (Spec.received [.flush]) = ([], t.tns) := by cases t.tns <;> rfl
    rw [hrec]
    refine ⟨(flush t, none), rfl, ?_⟩
    have base : ∀ t' : T, t'.key = t.key → t'.inPtr = t.inPtr → t'.outPtr = t.outPtr → t'.inLen = t.inLen → t'.inFlg = t.inFlg → t'.cons = t.cons → t'.tns = t.tns →
        Wf t' ∧ t'.inFlg = true ∧ t'.cons = true ∧ t'.tns = t.tns ∧ ∃ d, (none : Option Nat).toList = d.map Spec.ebcdic ∧ d ++ pending t' = pending t ++ kept [] := by
      intro t' k1 k2 k3 k4 k5 k6 k7
      exact ⟨⟨by rw [k2]; exact w.inP, by rw [k3]; exact w.outP, by rw [k4]; exact w.len, by rw [k2, k3, k4]; exact w.ring⟩, k5.trans hf, k6.trans hc, k7, [], rfl, by simp only [kept, List.filter_nil, List.append_nil]; exact pending_congr k1 k3 k4⟩
    unfold flush
    simp only
    repeat' split
    all_goals exact base _ rfl rfl rfl rfl rfl rfl rfl
  | signal tags =>
    have hrec : filt t.tns (Spec.received [.signal tags]) = ([], t.tns) := by cases t.tns <;> rfl
    rw [hrec]
    obtain ⟨a1, a2, a3, a4, a5⟩ := func_spec t tags ho w hf
    exact ⟨((func t tags).1, none), rfl, a1, a2, a3.trans hc, a4, [], rfl, by simp only [kept, List.filter_nil, List.append_nil]; exact a5⟩
  | caller =>
    have hrec : filt t.tns (Spec.received [.caller]) = ([], t.tns) := by cases t.tns <;> rfl
    rw [hrec]
    refine ⟨(t, none), by simp [step, connect_open t hc], w, hf, hc, rfl, [], rfl, by simp [kept]⟩

theorem received_cons (o : Op) (os : List Op) : Spec.received (o :: os) = Spec.received [o] ++ Spec.received os := by
  cases o <;> simp [Spec.received]

theorem run_spec (os : List Op) (t : T) (w : Wf t) (hf : t.inFlg = true) (hc : t.cons = true) (ho : ∀ o ∈ os, Spec.Open o) (hr : Spec.Room t os)
    (ha : ∀ c ∈ pending t ++ kept (filt t.tns (Spec.received os)).1, c < 128) :
    ∃ t' got, run t os = .ok (t', got) ∧ Wf t' ∧ t'.inFlg = true ∧ t'.cons = true ∧ t'.tns = (filt t.tns (Spec.received os)).2 ∧
      ∃ d, got = d.map Spec.ebcdic ∧ d ++ pending t' = pending t ++ kept (filt t.tns (Spec.received os)).1 := by
  induction os generalizing t with
  | nil => exact ⟨t, [], rfl, w, hf, hc, rfl, [], rfl, by simp [Spec.received, filt, kept]⟩
  | cons o os ih =>
    rw [received_cons, filt_append] at ha ⊢
    simp only [kept_append] at ha ⊢
    obtain ⟨r, a1, a2, a3, a4, a5, d, a6, a7⟩ := step_spec t o os w hf hc (ho o List.mem_cons_self) hr
      (fun c h => ha c (by rw [← List.append_assoc]; exact List.mem_append_left _ h))
    obtain ⟨t', got, b1, b2, b3, b4, b5, d', b6, b7⟩ := ih r.1 a2 a3 a4 (fun o h => ho o (List.mem_cons_of_mem _ h)) (hr.2 r a1)
      (fun c h => ha c (by
        rw [← List.append_assoc, ← a7, ← a5, List.append_assoc]
        exact List.mem_append_right _ h))
    refine ⟨t', r.2.toList ++ got, ?_, b2, b3, b4, by rw [b5, a5], d ++ d', ?_, ?_⟩
    · rw [run, a1]
      show (run r.1 os).bind _ = _
      rw [b1]
      rfl
    · rw [b6, a6, List.map_append]
    · rw [List.append_assoc, b7, ← List.append_assoc, a7, a5, List.append_assoc]

end Verif.Cons
