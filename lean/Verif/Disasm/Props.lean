import Verif.Disasm.Model
import Verif.Disasm.Spec

namespace Verif.Disasm

open Verif.Card (Res look)
open Spec (Instr)

/-! ## Numbers -/

theorem dec_num (n : Nat) : dec n = (Spec.num n).toList := by
  simp [dec, Spec.num, toString, Nat.repr]

theorem hex1_digit : ∀ n < 16, hex1 n = (Spec.digit n).toList := by decide +kernel

theorem hex2_hex2 : ∀ n < 256, hex2 n = (Spec.hex2 n).toList := by decide +kernel

theorem disp_eq (d : Nat) (h : d < 4096) : hex1 (d / 256) ++ hex2 (d % 256) = (Spec.disp d).toList := by
  rw [hex1_digit _ (by omega), hex2_hex2 _ (by omega)]
  simp only [Spec.disp, Spec.hex2, String.toList_append]
  rw [show d % 256 / 16 = d / 16 % 16 by omega, show d % 256 % 16 = d % 16 by omega]
  simp

theorem hi (a b : Nat) (ha : a < 16) (hb : b < 16) : ((16 * a + b) >>> 4) &&& 0xf = a := by
  rw [Nat.shiftRight_eq_div_pow, show (0xf : Nat) = 2 ^ 4 - 1 by decide, Nat.and_two_pow_sub_one_eq_mod]
  omega

theorem lo (a b : Nat) (hb : b < 16) : (16 * a + b) &&& 0xf = b := by
  rw [show (0xf : Nat) = 2 ^ 4 - 1 by decide, Nat.and_two_pow_sub_one_eq_mod]; omega

theorem hi_zero : ∀ a < 16, ∀ b < 16, ((16 * a + b) &&& 0xf0 = 0 ↔ a = 0) := by decide +kernel

theorem byte (a : Nat) (h : a < 256) : a &&& 0xff = a := by
  rw [show (0xff : Nat) = 2 ^ 8 - 1 by decide, Nat.and_two_pow_sub_one_eq_mod]; omega

/-! ## The table -/

/-- The type the table gives to an opcode. -/
def typ (op : Nat) : Nat :=
  if op = 0x04 then 9 else if op = 0x0a then 17 else if op < 0x40 then 1 else if op < 0x80 then 2
  else if op ∈ [0x86, 0x87, 0x90, 0x98] then 27 else if 0x88 ≤ op ∧ op < 0x90 then 35
  else if op ∈ [0x80, 0x82, 0x93, 0x9c, 0x9d, 0x9e, 0x9f] then 36
  else if op < 0xc0 then 4 else if op < 0xf0 then 5 else 29

theorem table' : ∀ op < 256, op = 0x84 ∨ op = 0x85 ∨
    optab.find? (fun e => e.1 == op) = (Spec.mnemonic op).map (fun m => (op, m, typ op)) := by
  decide +kernel

theorem table (op : Nat) (h : op < 256) (h4 : op ≠ 0x84) (h5 : op ≠ 0x85) :
    optab.find? (fun e => e.1 == op) = (Spec.mnemonic op).map (fun m => (op, m, typ op)) := by
  rcases table' op h with h | h | h
  · exact absurd h h4
  · exact absurd h h5
  · exact h

theorem table_big (op : Nat) (h : 256 ≤ op) : optab.find? (fun e => e.1 == op) = none := by
  have : ∀ e ∈ optab, e.1 < 256 := by decide +kernel
  rw [List.find?_eq_none]
  intro e he
  have := this e he
  simp; omega

theorem find (op : Nat) (h : op < 256) (m : String) (hm : Spec.mnemonic op = some m) (h4 : op ≠ 0x84) (h5 : op ≠ 0x85) :
    optab.find? (fun e => e.1 == op) = some (op, m, typ op) := by
  rw [table op h h4 h5, hm]; rfl

theorem at0 (a : Nat) (l : List Nat) : at' (a :: l) 0 = .ok a := rfl
theorem at1 (a b : Nat) (l : List Nat) : at' (a :: b :: l) 1 = .ok b := rfl
theorem at2 (a b c : Nat) (l : List Nat) : at' (a :: b :: c :: l) 2 = .ok c := rfl
theorem at3 (a b c d : Nat) (l : List Nat) : at' (a :: b :: c :: d :: l) 3 = .ok d := rfl
theorem at4 (a b c d e : Nat) (l : List Nat) : at' (a :: b :: c :: d :: e :: l) 4 = .ok e := rfl
theorem at5 (a b c d e f : Nat) (l : List Nat) : at' (a :: b :: c :: d :: e :: f :: l) 5 = .ok f := rfl

theorem bk {α β : Type} (a : α) (f : α → Res β) : (Res.ok a).bind f = f a := rfl

theorem print_eq (op : Nat) (h : op < 256) (m : String) (hm : Spec.mnemonic op = some m) (h4 : op ≠ 0x84) (h5 : op ≠ 0x85)
    (l : List Nat) : print (op :: l) = (form m (typ op) (op :: l)).bind (fun t => .ok (t ++ [' '])) := by
  have : at' (op :: l) 0 = .ok op := rfl
  unfold print
  rw [this, bk, find op h m hm h4 h5]

theorem valid_op (i : Instr) (h : i.Valid) : i.op < 256 ∧ ∃ m, Spec.mnemonic i.op = some m := by
  have rs : ∀ op ∈ [0x86, 0x87, 0x90, 0x98], op < 256 ∧ (Spec.mnemonic op).isSome = true := by decide +kernel
  have sh : ∀ op < 0x90, op < 0x88 ∨ (op < 256 ∧ (Spec.mnemonic op).isSome = true) := by decide +kernel
  have si : ∀ op ∈ [0x83, 0x84, 0x85, 0x91, 0x92, 0x94, 0x95, 0x96, 0x97], op < 256 ∧ (Spec.mnemonic op).isSome = true := by
    decide +kernel
  have s : ∀ op ∈ [0x80, 0x82, 0x93, 0x9c, 0x9d, 0x9e, 0x9f], op < 256 ∧ (Spec.mnemonic op).isSome = true := by
    decide +kernel
  suffices i.op < 256 ∧ (Spec.mnemonic i.op).isSome = true from ⟨this.1, Option.isSome_iff_exists.1 this.2⟩
  cases i with
  | rr op r1 r2 => exact ⟨show op < 256 by have := h.2.1; omega, h.1⟩
  | spm r1 x => exact (by decide +kernel : 4 < 256 ∧ (Spec.mnemonic 4).isSome = true)
  | svc i => exact (by decide +kernel : 0xa < 256 ∧ (Spec.mnemonic 0xa).isSome = true)
  | rx op r1 x2 b2 d2 => exact ⟨show op < 256 by have := h.2.2.1; omega, h.1⟩
  | rs op r1 r3 b2 d2 => exact rs op h.1
  | shift op r1 x b2 d2 =>
    rcases sh op h.2.1 with q | q
    · have := h.1; omega
    · exact q
  | si op i2 b1 d1 => exact si op h.1
  | s op x b1 d1 => exact s op h.1
  | ss op l b1 d1 b2 d2 => exact ⟨show op < 256 by have := h.2.2.1; omega, h.1⟩
  | ss2 op l1 l2 b1 d1 b2 d2 => exact ⟨h.2.2.1, h.1⟩

/-- Every instruction except write direct and read direct is shown with its mnemonic and all
its fields, in the order and notation of the assembler, whatever follows it in storage. -/
theorem C60_text_partial (i : Instr) (h : i.Valid) (h4 : i.op ≠ 0x84) (h5 : i.op ≠ 0x85) (rest : List Nat) :
    print (i.encode ++ rest) = .ok (Spec.text i).toList := by
  obtain ⟨ho, m, hm⟩ := valid_op i h
  have c1 : ∀ op < 0x40, op = 4 ∨ op = 0xa ∨ typ op = 1 := by decide +kernel
  have c2 : ∀ op < 0x80, op < 0x40 ∨ typ op = 2 := by decide +kernel
  have c3 : ∀ op ∈ [0x86, 0x87, 0x90, 0x98], typ op = 27 := by decide +kernel
  have c4 : ∀ op < 0x90, op < 0x88 ∨ typ op = 35 := by decide +kernel
  have c5 : ∀ op ∈ [0x83, 0x84, 0x85, 0x91, 0x92, 0x94, 0x95, 0x96, 0x97], typ op = 4 := by decide +kernel
  have c6 : ∀ op ∈ [0x80, 0x82, 0x93, 0x9c, 0x9d, 0x9e, 0x9f], typ op = 36 := by decide +kernel
  have c7 : ∀ op < 0xf0, op < 0xc0 ∨ typ op = 5 := by decide +kernel
  have c8 : ∀ op < 0x100, op < 0xf0 ∨ typ op = 29 := by decide +kernel
  have dd : ∀ d b, d < 4096 → b < 16 → hex1 ((16 * b + d / 256) &&& 0xf) ++ hex2 (d % 256 &&& 0xff) = (Spec.disp d).toList := by
    intro d b h1 h2
    rw [lo _ _ (by omega), byte _ (by omega), disp_eq d h1]
  have ds : ∀ d b l, d < 4096 → b < 16 → hex1 ((16 * b + d / 256) &&& 0xf) ++ (hex2 (d % 256 &&& 0xff) ++ l) = (Spec.disp d).toList ++ l := by
    intro d b l h1 h2
    rw [← List.append_assoc, dd d b h1 h2]
  have db : ∀ d b, d < 4096 → b < 16 → ((16 * b + d / 256) >>> 4) &&& 0xf = b :=
    fun d b h1 h2 => hi _ _ h2 (by omega)
  have dz : ∀ d b, d < 4096 → b < 16 → ((16 * b + d / 256) &&& 0xf0 = 0 ↔ b = 0) :=
    fun d b h1 h2 => hi_zero _ h2 _ (by omega)
  cases i with
  | rr op r1 r2 =>
    obtain ⟨_, a, b, c, d, e⟩ := h
    have t : typ op = 1 := by rcases c1 op a with q | q | q <;> first | exact absurd q b | exact absurd q c | exact q
    show print (op :: (16 * r1 + r2) :: rest) = _
    rw [print_eq op ho m hm h4 h5, t]
    have hm : Spec.mnemonic op = some m := hm
    simp [form, at1, bk, hi _ _ d e, lo _ _ e, dec_num, Spec.text, Spec.operands, Instr.op, hm]
  | spm r1 x =>
    obtain ⟨d, e⟩ := h
    show print (4 :: (16 * r1 + x) :: rest) = _
    rw [print_eq 4 ho m hm h4 h5]
    have hm : Spec.mnemonic 4 = some m := hm
    simp [typ, form, at1, bk, hi _ _ d e, dec_num, Spec.text, Spec.operands, Instr.op, hm]
  | svc i =>
    have d : i < 256 := h
    show print (0xa :: i :: rest) = _
    rw [print_eq 0xa ho m hm h4 h5]
    have hm : Spec.mnemonic 0xa = some m := hm
    simp [typ, form, at1, bk, hex2_hex2 _ d, Spec.text, Spec.operands, Instr.op, hm]
  | rx op r1 x2 b2 d2 =>
    obtain ⟨_, a, b, c, d, e, f⟩ := h
    have t : typ op = 2 := by rcases c2 op b with q | q <;> first | omega | exact q
    show print (op :: (16 * r1 + x2) :: (16 * b2 + d2 / 256) :: (d2 % 256) :: rest) = _
    rw [print_eq op ho m hm h4 h5, t]
    have hm : Spec.mnemonic op = some m := hm
    simp [form, at1, at2, at3, bk, hi _ _ c d, lo _ _ d, ds _ _ _ f e, db _ _ f e, dec_num, Spec.text, Spec.operands, Instr.op, hm]
  | rs op r1 r3 b2 d2 =>
    obtain ⟨a, c, d, e, f⟩ := h
    show print (op :: (16 * r1 + r3) :: (16 * b2 + d2 / 256) :: (d2 % 256) :: rest) = _
    rw [print_eq op ho m hm h4 h5, c3 op a]
    have hm : Spec.mnemonic op = some m := hm

    simp [form, at1, at2, at3, bk, hi _ _ c d, lo _ _ d, ds _ _ _ f e, dd _ _ f e, db _ _ f e, dz _ _ f e, dec_num, Spec.text, Spec.operands, Spec.addr, Instr.op, hm]
    split <;> simp
  | shift op r1 x b2 d2 =>
    obtain ⟨a, b, c, d, e, f⟩ := h
    have t : typ op = 35 := by rcases c4 op b with q | q <;> first | omega | exact q
    show print (op :: (16 * r1 + x) :: (16 * b2 + d2 / 256) :: (d2 % 256) :: rest) = _
    rw [print_eq op ho m hm h4 h5, t]
    have hm : Spec.mnemonic op = some m := hm

    simp [form, at1, at2, at3, bk, hi _ _ c d, ds _ _ _ f e, dd _ _ f e, db _ _ f e, dz _ _ f e, dec_num, Spec.text, Spec.operands, Spec.addr, Instr.op, hm]
    split <;> simp
  | si op i2 b1 d1 =>
    obtain ⟨a, c, e, f⟩ := h
    show print (op :: i2 :: (16 * b1 + d1 / 256) :: (d1 % 256) :: rest) = _
    rw [print_eq op ho m hm h4 h5, c5 op a]
    have hm : Spec.mnemonic op = some m := hm

    simp [form, at1, at2, at3, bk, byte _ c, hex2_hex2 _ c, ds _ _ _ f e, dd _ _ f e, db _ _ f e, dz _ _ f e, dec_num, Spec.text, Spec.operands, Spec.addr, Instr.op, hm]
    split <;> simp
  | s op x b1 d1 =>
    obtain ⟨a, c, e, f⟩ := h
    show print (op :: x :: (16 * b1 + d1 / 256) :: (d1 % 256) :: rest) = _
    rw [print_eq op ho m hm h4 h5, c6 op a]
    have hm : Spec.mnemonic op = some m := hm

    simp [form, at1, at2, at3, bk, ds _ _ _ f e, dd _ _ f e, db _ _ f e, dz _ _ f e, dec_num, Spec.text, Spec.operands, Spec.addr, Instr.op, hm]
    split <;> simp
  | ss op l b1 d1 b2 d2 =>
    obtain ⟨_, a, b, c, e, f, e', f'⟩ := h
    have t : typ op = 5 := by rcases c7 op b with q | q <;> first | omega | exact q
    show print (op :: l :: (16 * b1 + d1 / 256) :: (d1 % 256) :: (16 * b2 + d2 / 256) :: (d2 % 256) :: rest) = _
    rw [print_eq op ho m hm h4 h5, t]
    have hm : Spec.mnemonic op = some m := hm

    simp [form, at1, at2, at3, at4, at5, bk, byte _ c, ds _ _ _ f e, dd _ _ f e, db _ _ f e, dz _ _ f e,
      ds _ _ _ f' e', dd _ _ f' e', db _ _ f' e', dec_num, Spec.text, Spec.operands, Spec.addr, Instr.op, hm]
    split <;> simp
  | ss2 op l1 l2 b1 d1 b2 d2 =>
    obtain ⟨_, a, b, c, d, e, f, e', f'⟩ := h
    have t : typ op = 29 := by rcases c8 op b with q | q <;> first | omega | exact q
    show print (op :: (16 * l1 + l2) :: (16 * b1 + d1 / 256) :: (d1 % 256) :: (16 * b2 + d2 / 256) :: (d2 % 256) :: rest) = _
    rw [print_eq op ho m hm h4 h5, t]
    have hm : Spec.mnemonic op = some m := hm

    simp [form, at1, at2, at3, at4, at5, bk, hi _ _ c d, lo _ _ d, ds _ _ _ f e, dd _ _ f e, db _ _ f e, dz _ _ f e,
      ds _ _ _ f' e', dd _ _ f' e', db _ _ f' e', dec_num, Spec.text, Spec.operands, Spec.addr, Instr.op, hm]
    split <;> simp

theorem C60_violated_direct (rest : List Nat) :
    (∀ i2 b1 d1, print ((Instr.si 0x84 i2 b1 d1).encode ++ rest) = .ok "?84? ".toList)
      ∧ (∀ i2 b1 d1, print ((Instr.si 0x85 i2 b1 d1).encode ++ rest) = .ok "?85? ".toList) := by
  constructor
  · intro i2 b1 d1
    show print (0x84 :: _) = _
    unfold print
    rw [at0, bk, show optab.find? (fun e => e.1 == 0x84) = none by decide +kernel]
    show Res.ok (['?'] ++ hex2 0x84 ++ ['?', ' ']) = _
    decide +kernel
  · intro i2 b1 d1
    show print (0x85 :: _) = _
    unfold print
    rw [at0, bk, show optab.find? (fun e => e.1 == 0x85) = none by decide +kernel]
    show Res.ok (['?'] ++ hex2 0x85 ++ ['?', ' ']) = _
    decide +kernel

/-- A byte that is no operation code is shown as such. -/
theorem C60_unassigned (op : Nat) (h : op < 256) (hm : Spec.mnemonic op = none) (rest : List Nat) :
    print (op :: rest) = .ok ("?" ++ Spec.hex2 op ++ "? ").toList := by
  have n4 : op ≠ 0x84 := by rintro rfl; exact absurd hm (by decide +kernel)
  have n5 : op ≠ 0x85 := by rintro rfl; exact absurd hm (by decide +kernel)
  unfold print
  rw [at0, bk, table op h n4 n5, hm]
  simp [hex2_hex2 op h]

/-- Every byte sequence that begins with an operation code and has the length of that
instruction is the coding of an instruction, so that `C60_text_partial` speaks about every one. -/
theorem C60_complete (v : List Nat) (hv : ∀ x ∈ v, x < 256) (op : Nat) (ho : v.head? = some op)
    (hm : (Spec.mnemonic op).isSome = true) (hl : v.length = Spec.length op) :
    ∃ i : Instr, i.Valid ∧ i.encode = v := by
  have cls : ∀ op < 256, (Spec.mnemonic op).isNone = true ∨
      (op < 0x40) ∨ (0x40 ≤ op ∧ op < 0x80) ∨ (op ∈ [0x86, 0x87, 0x90, 0x98]) ∨ (0x88 ≤ op ∧ op < 0x90)
      ∨ op ∈ [0x83, 0x84, 0x85, 0x91, 0x92, 0x94, 0x95, 0x96, 0x97]
      ∨ op ∈ [0x80, 0x82, 0x93, 0x9c, 0x9d, 0x9e, 0x9f]
      ∨ (0xc0 ≤ op ∧ op < 0xf0) ∨ (0xf0 ≤ op ∧ op < 0x100) := by decide +kernel
  have l6 : ∀ op ∈ [0x86, 0x87, 0x90, 0x98], Spec.length op = 4 := by decide +kernel
  have l7 : ∀ op ∈ [0x83, 0x84, 0x85, 0x91, 0x92, 0x94, 0x95, 0x96, 0x97], Spec.length op = 4 := by decide +kernel
  have l8 : ∀ op ∈ [0x80, 0x82, 0x93, 0x9c, 0x9d, 0x9e, 0x9f], Spec.length op = 4 := by decide +kernel
  have four : ∀ v : List Nat, v.head? = some op → v.length = 4 → ∃ a b c, v = [op, a, b, c] := by
    intro v h1 h2
    match v, h1, h2 with
    | [_, a, b, c], h1, _ => cases h1; exact ⟨a, b, c, rfl⟩
  have six : ∀ v : List Nat, v.head? = some op → v.length = 6 → ∃ a b c d e, v = [op, a, b, c, d, e] := by
    intro v h1 h2
    match v, h1, h2 with
    | [_, a, b, c, d, e], h1, _ => cases h1; exact ⟨a, b, c, d, e, rfl⟩
  have two : ∀ v : List Nat, v.head? = some op → v.length = 2 → ∃ a, v = [op, a] := by
    intro v h1 h2
    match v, h1, h2 with
    | [_, a], h1, _ => cases h1; exact ⟨a, rfl⟩
  have nib : ∀ a, a < 256 → 16 * (a / 16) + a % 16 = a ∧ a / 16 < 16 ∧ a % 16 < 16 := by intro a h; omega
  have dis : ∀ b c, b < 256 → c < 256 → 16 * (b / 16) + (b % 16 * 256 + c) / 256 = b ∧ (b % 16 * 256 + c) % 256 = c
      ∧ b / 16 < 16 ∧ b % 16 * 256 + c < 4096 := by intro b c h1 h2; omega
  have hop : op < 256 := by
    cases v with
    | nil => simp at ho
    | cons x l => cases ho; exact hv _ (by simp)
  rcases cls op hop with q | q | q | q | q | q | q | q | q
  · cases h : Spec.mnemonic op <;> simp [h] at hm q
  · obtain ⟨a, rfl⟩ := two v ho (by rw [hl]; simp [Spec.length]; omega)
    obtain ⟨n1, n2, n3⟩ := nib a (hv a (by simp))
    by_cases h4 : op = 4
    · exact ⟨.spm (a / 16) (a % 16), ⟨n2, n3⟩, by simp [Instr.encode, n1, h4]⟩
    · by_cases ha : op = 0xa
      · exact ⟨.svc a, hv a (by simp), by simp [Instr.encode, ha]⟩
      · exact ⟨.rr op (a / 16) (a % 16), ⟨hm, q, h4, ha, n2, n3⟩, by simp [Instr.encode, n1]⟩
  · obtain ⟨a, b, c, rfl⟩ := four v ho (by rw [hl]; unfold Spec.length; rw [if_neg (by omega), if_pos (by omega)])
    obtain ⟨n1, n2, n3⟩ := nib a (hv a (by simp))
    obtain ⟨d1, d2, d3, d4⟩ := dis b c (hv b (by simp)) (hv c (by simp))
    exact ⟨.rx op (a / 16) (a % 16) (b / 16) (b % 16 * 256 + c), ⟨hm, q.1, q.2, n2, n3, d3, d4⟩, by
      simp [Instr.encode, n1, d1, d2]⟩
  · obtain ⟨a, b, c, rfl⟩ := four v ho (by rw [hl, l6 op q])
    obtain ⟨n1, n2, n3⟩ := nib a (hv a (by simp))
    obtain ⟨d1, d2, d3, d4⟩ := dis b c (hv b (by simp)) (hv c (by simp))
    exact ⟨.rs op (a / 16) (a % 16) (b / 16) (b % 16 * 256 + c), ⟨q, n2, n3, d3, d4⟩, by
      simp [Instr.encode, n1, d1, d2]⟩
  · obtain ⟨a, b, c, rfl⟩ := four v ho (by rw [hl]; unfold Spec.length; rw [if_neg (by omega), if_pos (by omega)])
    obtain ⟨n1, n2, n3⟩ := nib a (hv a (by simp))
    obtain ⟨d1, d2, d3, d4⟩ := dis b c (hv b (by simp)) (hv c (by simp))
    exact ⟨.shift op (a / 16) (a % 16) (b / 16) (b % 16 * 256 + c), ⟨q.1, q.2, n2, n3, d3, d4⟩, by
      simp [Instr.encode, n1, d1, d2]⟩
  · obtain ⟨a, b, c, rfl⟩ := four v ho (by rw [hl, l7 op q])
    obtain ⟨d1, d2, d3, d4⟩ := dis b c (hv b (by simp)) (hv c (by simp))
    exact ⟨.si op a (b / 16) (b % 16 * 256 + c), ⟨q, hv a (by simp), d3, d4⟩, by
      simp [Instr.encode, d1, d2]⟩
  · obtain ⟨a, b, c, rfl⟩ := four v ho (by rw [hl, l8 op q])
    obtain ⟨d1, d2, d3, d4⟩ := dis b c (hv b (by simp)) (hv c (by simp))
    exact ⟨.s op a (b / 16) (b % 16 * 256 + c), ⟨q, hv a (by simp), d3, d4⟩, by
      simp [Instr.encode, d1, d2]⟩
  · obtain ⟨a, b, c, d, e, rfl⟩ := six v ho (by rw [hl]; unfold Spec.length; rw [if_neg (by omega), if_neg (by omega)])
    obtain ⟨d1, d2, d3, d4⟩ := dis b c (hv b (by simp)) (hv c (by simp))
    obtain ⟨e1, e2, e3, e4⟩ := dis d e (hv d (by simp)) (hv e (by simp))
    exact ⟨.ss op a (b / 16) (b % 16 * 256 + c) (d / 16) (d % 16 * 256 + e),
      ⟨hm, q.1, q.2, hv a (by simp), d3, d4, e3, e4⟩, by simp [Instr.encode, d1, d2, e1, e2]⟩
  · obtain ⟨a, b, c, d, e, rfl⟩ := six v ho (by rw [hl]; unfold Spec.length; rw [if_neg (by omega), if_neg (by omega)])
    obtain ⟨n1, n2, n3⟩ := nib a (hv a (by simp))
    obtain ⟨d1, d2, d3, d4⟩ := dis b c (hv b (by simp)) (hv c (by simp))
    obtain ⟨e1, e2, e3, e4⟩ := dis d e (hv d (by simp)) (hv e (by simp))
    exact ⟨.ss2 op (a / 16) (a % 16) (b / 16) (b % 16 * 256 + c) (d / 16) (d % 16 * 256 + e),
      ⟨hm, q.1, q.2, n2, n3, d3, d4, e3, e4⟩, by simp [Instr.encode, n1, d1, d2, e1, e2]⟩

theorem num_len : ∀ n < 256, (Spec.num n).toList.length ≤ 3 := by decide +kernel
theorem num_len2 : ∀ n < 16, (Spec.num n).toList.length ≤ 2 := by decide +kernel
theorem digit_len (n : Nat) : (Spec.digit n).toList.length = 1 := by simp [Spec.digit]
theorem disp_len (n : Nat) : (Spec.disp n).toList.length = 3 := by simp [Spec.disp, Spec.digit]
theorem hex2_len (n : Nat) : (Spec.hex2 n).toList.length = 2 := by simp [Spec.hex2, Spec.digit]
theorem name_len : ∀ op < 256, ((Spec.mnemonic op).getD "").toList.length ≤ 4 := by decide +kernel

theorem addr_len (d b : Nat) (h : b < 16) : (Spec.addr d b).toList.length ≤ 7 := by
  have := num_len2 b h
  unfold Spec.addr
  have hd := disp_len d
  split <;> simp only [String.toList_append, List.length_append] <;> simp at * <;> omega

theorem operands_len (i : Instr) (h : i.Valid) : (Spec.operands i).toList.length ≤ 24 := by
  have e : ("," : String).toList.length = 1 := by decide
  have e2 : (" " : String).toList.length = 1 := by decide
  have e3 : ("  " : String).toList.length = 2 := by decide
  have e4 : ("(" : String).toList.length = 1 := by decide
  have e5 : (")  " : String).toList.length = 3 := by decide
  have e6 : ("),": String).toList.length = 2 := by decide
  have e7 : (") ": String).toList.length = 2 := by decide
  cases i with
  | rr op r1 r2 =>
    obtain ⟨_, a, b, c, d, e⟩ := h
    have := num_len2 r1 d; have := num_len2 r2 e
    simp only [Spec.operands, String.toList_append, List.length_append]; omega
  | spm r1 x =>
    have := num_len2 r1 h.1
    simp only [Spec.operands, String.toList_append, List.length_append]; omega
  | svc i =>
    have := hex2_len i
    simp only [Spec.operands, String.toList_append, List.length_append]; omega
  | rx op r1 x2 b2 d2 =>
    obtain ⟨_, a, b, c, d, e, f⟩ := h
    have := num_len2 r1 c; have := num_len2 x2 d; have := num_len2 b2 e; have := disp_len d2
    simp only [Spec.operands, String.toList_append, List.length_append]; omega
  | rs op r1 r3 b2 d2 =>
    obtain ⟨a, c, d, e, f⟩ := h
    have := num_len2 r1 c; have := num_len2 r3 d; have := addr_len d2 b2 e
    simp only [Spec.operands, String.toList_append, List.length_append]; omega
  | shift op r1 x b2 d2 =>
    obtain ⟨a, b, c, d, e, f⟩ := h
    have := num_len2 r1 c; have := addr_len d2 b2 e
    simp only [Spec.operands, String.toList_append, List.length_append]; omega
  | si op i2 b1 d1 =>
    obtain ⟨a, c, e, f⟩ := h
    have := hex2_len i2; have := addr_len d1 b1 e
    simp only [Spec.operands, String.toList_append, List.length_append]; omega
  | s op x b1 d1 =>
    obtain ⟨a, c, e, f⟩ := h
    have := addr_len d1 b1 e
    simp only [Spec.operands, String.toList_append, List.length_append]; omega
  | ss op l b1 d1 b2 d2 =>
    obtain ⟨_, a, b, c, e, f, e', f'⟩ := h
    have := num_len l c; have := num_len2 b1 e; have := num_len2 b2 e'; have := disp_len d1; have := disp_len d2
    have t : (if b1 = 0 then "" else "," ++ Spec.num b1).toList.length ≤ 3 := by
      split
      · decide
      · simp only [String.toList_append, List.length_append]; omega
    simp only [Spec.operands, String.toList_append, List.length_append]; omega
  | ss2 op l1 l2 b1 d1 b2 d2 =>
    obtain ⟨_, a, b, c, d, e, f, e', f'⟩ := h
    have := num_len2 l1 c; have := num_len2 l2 d; have := num_len2 b1 e; have := num_len2 b2 e'
    have := disp_len d1; have := disp_len d2
    have t : (if b1 = 0 then "" else "," ++ Spec.num b1).toList.length ≤ 3 := by
      split
      · decide
      · simp only [String.toList_append, List.length_append]; omega
    simp only [Spec.operands, String.toList_append, List.length_append]; omega

/-- The instruction printer reads the bytes of the instruction and no others: when storage
ends with the instruction there is no read behind it, and what follows makes no difference.
The text with its terminator is far shorter than the buffer of 256 bytes. -/
theorem C60_reads (v : List Nat) (hv : ∀ x ∈ v, x < 256) (op : Nat) (ho : v.head? = some op)
    (hl : v.length = Spec.length op) :
    ∃ t, t.length < 32 ∧ ∀ rest, print (v ++ rest) = .ok t := by
  obtain ⟨l, rfl⟩ : ∃ l, v = op :: l := by
    cases v with
    | nil => simp at ho
    | cons x l => cases ho; exact ⟨l, rfl⟩
  have hop : op < 256 := hv _ (by simp)
  cases hm : Spec.mnemonic op with
  | none =>
    refine ⟨("?" ++ Spec.hex2 op ++ "? ").toList, ?_, fun rest => C60_unassigned op hop hm _⟩
    have := hex2_len op
    simp [this]
  | some m =>
    obtain ⟨i, h1, h2⟩ := C60_complete (op :: l) hv op rfl (by rw [hm]; rfl) hl
    have hi : i.op = op := by cases i <;> injection h2
    have hi' := hi
    by_cases h4 : op = 0x84
    · subst h4
      refine ⟨"?84? ".toList, by decide +kernel, fun rest => ?_⟩
      · unfold print
        show (at' (0x84 :: (l ++ rest)) 0).bind _ = _
        rw [at0, bk, show optab.find? (fun e => e.1 == 0x84) = none by decide +kernel]
        show Res.ok (['?'] ++ hex2 0x84 ++ ['?', ' ']) = _
        decide +kernel
    by_cases h5 : op = 0x85
    · subst h5
      refine ⟨"?85? ".toList, by decide +kernel, fun rest => ?_⟩
      · unfold print
        show (at' (0x85 :: (l ++ rest)) 0).bind _ = _
        rw [at0, bk, show optab.find? (fun e => e.1 == 0x85) = none by decide +kernel]
        show Res.ok (['?'] ++ hex2 0x85 ++ ['?', ' ']) = _
        decide +kernel
    refine ⟨(Spec.text i).toList, ?_, fun rest => ?_⟩
    · have a := operands_len i h1
      have b := name_len op hop
      have c : (" " : String).toList.length = 1 := by decide
      simp only [Spec.text, String.toList_append, List.length_append, hi]; omega
    · rw [← h2]
      exact C60_text_partial i h1 (by rw [hi]; exact h4) (by rw [hi]; exact h5) rest

example : print [0x1a, 0x5c] = .ok "AR 5,12  ".toList := by decide +kernel
example : print [0x96, 0xf0, 0x30, 0x07] = .ok "OI 007(3),f0 ".toList := by decide +kernel
example : print [0xfa, 0x73, 0xb1, 0x00, 0xc2, 0x08] = .ok "AP 100(7,11),208(3,12) ".toList := by decide +kernel
example : print [0x58] = .oob := by decide +kernel

/-! ## Different instructions have different texts -/

theorem cut {P : Char → Prop} : ∀ (a b : List Char) (c d : Char) (x y : List Char),
    (∀ z ∈ a, P z) → (∀ z ∈ b, P z) → ¬ P c → ¬ P d → a ++ c :: x = b ++ d :: y → a = b ∧ c = d ∧ x = y
  | [], [], c, d, x, y, _, _, _, _, h => by simp at h; exact ⟨rfl, h.1, h.2⟩
  | [], z :: b, c, d, x, y, _, hb, hc, _, h => by simp at h; exact absurd (hb z (by simp)) (h.1 ▸ hc)
  | z :: a, [], c, d, x, y, ha, _, _, hd, h => by simp at h; exact absurd (ha z (by simp)) (h.1 ▸ hd)
  | z :: a, w :: b, c, d, x, y, ha, hb, hc, hd, h => by
      simp at h
      obtain ⟨e, f, g⟩ := cut a b c d x y (fun q hq => ha q (by simp [hq])) (fun q hq => hb q (by simp [hq])) hc hd h.2
      exact ⟨by rw [h.1, e], f, g⟩

theorem num_digits : ∀ n < 256, ∀ z ∈ (Spec.num n).toList, z.isDigit = true := by decide +kernel

def value (l : List Char) : Nat := l.foldl (fun a c => a * 10 + (c.toNat - 48)) 0

theorem num_value : ∀ n < 256, value (Spec.num n).toList = n := by decide +kernel

theorem num_cut (a b : Nat) (ha : a < 256) (hb : b < 256) (c d : Char) (x y : List Char) (hc : c.isDigit = false)
    (hd : d.isDigit = false) (h : (Spec.num a).toList ++ c :: x = (Spec.num b).toList ++ d :: y) :
    a = b ∧ c = d ∧ x = y := by
  obtain ⟨e, f⟩ := cut (P := fun z => z.isDigit = true) _ _ c d x y (num_digits a ha) (num_digits b hb)
    (by simp [hc]) (by simp [hd]) h
  have := num_value a ha
  rw [e, num_value b hb] at this
  exact ⟨this.symm, f⟩

theorem digit_value : ∀ a < 16, ∀ b < 16, Spec.digit a = Spec.digit b → a = b := by decide +kernel

theorem disp_cut (a b : Nat) (ha : a < 4096) (hb : b < 4096) (x y : List Char)
    (h : (Spec.disp a).toList ++ x = (Spec.disp b).toList ++ y) : a = b ∧ x = y := by
  obtain ⟨e, f⟩ := List.append_inj h (by rw [disp_len, disp_len])
  refine ⟨?_, f⟩
  simp only [Spec.disp, String.toList_append, List.append_assoc] at e
  obtain ⟨e1, e⟩ := List.append_inj e (by rw [digit_len, digit_len])
  obtain ⟨e2, e3⟩ := List.append_inj e (by rw [digit_len, digit_len])
  have := digit_value _ (by omega) _ (by omega) (String.toList_injective e1)
  have := digit_value _ (by omega) _ (by omega) (String.toList_injective e2)
  have := digit_value _ (by omega) _ (by omega) (String.toList_injective e3)
  omega

theorem hex2_cut (a b : Nat) (ha : a < 256) (hb : b < 256) (x y : List Char)
    (h : (Spec.hex2 a).toList ++ x = (Spec.hex2 b).toList ++ y) : a = b ∧ x = y := by
  obtain ⟨e, f⟩ := List.append_inj h (by rw [hex2_len, hex2_len])
  refine ⟨?_, f⟩
  simp only [Spec.hex2, String.toList_append] at e
  obtain ⟨e1, e2⟩ := List.append_inj e (by rw [digit_len, digit_len])
  have := digit_value _ (by omega) _ (by omega) (String.toList_injective e1)
  have := digit_value _ (by omega) _ (by omega) (String.toList_injective e2)
  omega

theorem addr_cut (d b d' b' : Nat) (hd : d < 4096) (hb : b < 16) (hd' : d' < 4096) (hb' : b' < 16) (c : Char)
    (hc : c ≠ '(') (x y : List Char)
    (h : (Spec.addr d b).toList ++ c :: x = (Spec.addr d' b').toList ++ c :: y) : d = d' ∧ b = b' ∧ x = y := by
  simp only [Spec.addr, String.toList_append, List.append_assoc] at h
  obtain ⟨e, h⟩ := disp_cut d d' hd hd' _ _ h
  refine ⟨e, ?_⟩
  by_cases z : b = 0 <;> by_cases z' : b' = 0
  · subst z; subst z'; simp at h; exact ⟨rfl, h⟩
  · rw [if_pos z, if_neg z'] at h
    simp at h
    exact absurd h.1 hc
  · rw [if_neg z, if_pos z'] at h
    simp at h
    exact absurd h.1.symm hc
  · rw [if_neg z, if_neg z'] at h
    simp at h
    obtain ⟨e1, _, e2⟩ := num_cut b b' (by omega) (by omega) _ _ _ _ (by decide) (by decide) h
    simp at e2
    exact ⟨e1, e2⟩

/-- The number of the constructor. -/
def idx : Instr → Nat
  | .rr .. => 0 | .spm .. => 1 | .svc .. => 2 | .rx .. => 3 | .rs .. => 4 | .shift .. => 5 | .si .. => 6
  | .s .. => 7 | .ss .. => 8 | .ss2 .. => 9

def idxOf (op : Nat) : Nat :=
  if op = 4 then 1 else if op = 0xa then 2 else if op < 0x40 then 0 else if op < 0x80 then 3
  else if op ∈ [0x86, 0x87, 0x90, 0x98] then 4 else if 0x88 ≤ op ∧ op < 0x90 then 5
  else if op ∈ [0x80, 0x82, 0x93, 0x9c, 0x9d, 0x9e, 0x9f] then 7
  else if op < 0xc0 then 6 else if op < 0xf0 then 8 else 9

theorem idx_op (i : Instr) (h : i.Valid) : idx i = idxOf i.op := by
  have c1 : ∀ op < 0x40, op = 4 ∨ op = 0xa ∨ idxOf op = 0 := by decide +kernel
  have c2 : ∀ op < 0x80, op < 0x40 ∨ idxOf op = 3 := by decide +kernel
  have c3 : ∀ op ∈ [0x86, 0x87, 0x90, 0x98], idxOf op = 4 := by decide +kernel
  have c4 : ∀ op < 0x90, op < 0x88 ∨ idxOf op = 5 := by decide +kernel
  have c5 : ∀ op ∈ [0x83, 0x84, 0x85, 0x91, 0x92, 0x94, 0x95, 0x96, 0x97], idxOf op = 6 := by decide +kernel
  have c6 : ∀ op ∈ [0x80, 0x82, 0x93, 0x9c, 0x9d, 0x9e, 0x9f], idxOf op = 7 := by decide +kernel
  have c7 : ∀ op < 0xf0, op < 0xc0 ∨ idxOf op = 8 := by decide +kernel
  have c8 : ∀ op < 0x100, op < 0xf0 ∨ idxOf op = 9 := by decide +kernel
  cases i with
  | rr op r1 r2 =>
    obtain ⟨_, a, b, c, _⟩ := h
    rcases c1 op a with q | q | q
    · exact absurd q b
    · exact absurd q c
    · exact q.symm
  | spm r1 x => rfl
  | svc i => rfl
  | rx op r1 x2 b2 d2 =>
    obtain ⟨_, a, b, _⟩ := h
    rcases c2 op b with q | q
    · omega
    · exact q.symm
  | rs op r1 r3 b2 d2 => exact (c3 op h.1).symm
  | shift op r1 x b2 d2 =>
    obtain ⟨a, b, _⟩ := h
    rcases c4 op b with q | q
    · omega
    · exact q.symm
  | si op i2 b1 d1 => exact (c5 op h.1).symm
  | s op x b1 d1 => exact (c6 op h.1).symm
  | ss op l b1 d1 b2 d2 =>
    obtain ⟨_, a, b, _⟩ := h
    rcases c7 op b with q | q
    · omega
    · exact q.symm
  | ss2 op l1 l2 b1 d1 b2 d2 =>
    obtain ⟨_, a, b, _⟩ := h
    rcases c8 op b with q | q
    · omega
    · exact q.symm

theorem name_inj : ∀ e ∈ Spec.opcodes, Spec.opcodes.find? (fun x => x.2 == e.2) = some e := by decide +kernel

theorem name_plain : ∀ e ∈ Spec.opcodes, ∀ z ∈ e.2.toList, z ≠ ' ' := by decide +kernel

theorem name_mem (op : Nat) (m : String) (h : Spec.mnemonic op = some m) : (op, m) ∈ Spec.opcodes := by
  unfold Spec.mnemonic at h
  cases e : Spec.opcodes.find? (fun x => x.1 == op) with
  | none => rw [e] at h; simp at h
  | some x =>
    rw [e] at h
    have h1 := List.mem_of_find?_eq_some e
    have h2 := List.find?_some e
    simp at h h2
    rw [← h, ← h2]; exact h1

theorem k1 : ("," : String).toList = [','] := by decide
theorem k2 : (" " : String).toList = [' '] := by decide
theorem k3 : ("  " : String).toList = [' ', ' '] := by decide
theorem k4 : ("(" : String).toList = ['('] := by decide
theorem k5 : (")  " : String).toList = [')', ' ', ' '] := by decide
theorem k6 : ("),": String).toList = [')', ','] := by decide
theorem k7 : (") ": String).toList = [')', ' '] := by decide

theorem base_cut (b b' : Nat) (h : b < 16) (h' : b' < 16) (x y : List Char)
    (e : (if b = 0 then "" else "," ++ Spec.num b).toList ++ ')' :: x
      = (if b' = 0 then "" else "," ++ Spec.num b').toList ++ ')' :: y) : b = b' ∧ x = y := by
  by_cases z : b = 0 <;> by_cases z' : b' = 0
  · subst z; subst z'; simp at e; exact ⟨rfl, e⟩
  · rw [if_pos z, if_neg z'] at e
    simp at e
  · rw [if_neg z, if_pos z'] at e
    simp at e
  · rw [if_neg z, if_neg z'] at e
    simp at e
    obtain ⟨e1, _, e2⟩ := num_cut b b' (by omega) (by omega) _ _ _ _ (by decide) (by decide) e
    exact ⟨e1, e2⟩

/-- `c` or a character that is no digit follows the length. -/
theorem len_cut (l l' b b' : Nat) (hl : l < 256) (hl' : l' < 256) (h : b < 16) (h' : b' < 16) (x y : List Char)
    (e : (Spec.num l).toList ++ ((if b = 0 then "" else "," ++ Spec.num b).toList ++ ')' :: x)
      = (Spec.num l').toList ++ ((if b' = 0 then "" else "," ++ Spec.num b').toList ++ ')' :: y)) :
    l = l' ∧ b = b' ∧ x = y := by
  have key : ∀ b (x : List Char), ∃ c z, c.isDigit = false ∧ (if b = 0 then "" else "," ++ Spec.num b).toList ++ ')' :: x = c :: z := by
    intro b x
    by_cases z : b = 0
    · exact ⟨')', x, by decide, by rw [if_pos z]; rfl⟩
    · exact ⟨',', (Spec.num b).toList ++ ')' :: x, by decide, by rw [if_neg z]; simp⟩
  obtain ⟨c, z, hc, e1⟩ := key b x
  obtain ⟨c', z', hc', e2⟩ := key b' y
  have e' := e
  rw [e1, e2] at e'
  obtain ⟨q, r, t⟩ := num_cut l l' hl hl' _ _ _ _ hc hc' e'
  refine ⟨q, base_cut b b' h h' x y ?_⟩
  rw [e1, e2, r, t]

/-- Two instructions with the same text are the same, except for fields without meaning:
a trace tells exactly which instruction was there. -/
theorem C101_injective (i j : Instr) (hi : i.Valid) (hj : j.Valid) (h : Spec.text i = Spec.text j) :
    i.meaning = j.meaning := by
  obtain ⟨oi, m, hm⟩ := valid_op i hi
  obtain ⟨oj, n, hn⟩ := valid_op j hj
  have h := congrArg String.toList h
  simp only [Spec.text, hm, hn, Option.getD_some, String.toList_append, List.append_assoc, k2, List.cons_append, List.nil_append] at h
  obtain ⟨e1, _, e2⟩ := cut (P := fun z => z ≠ ' ') _ _ _ _ _ _ (name_plain _ (name_mem _ _ hm))
    (name_plain _ (name_mem _ _ hn)) (by simp) (by simp) h
  have e1 : m = n := String.toList_injective e1
  have eo : i.op = j.op := by
    have a := name_inj _ (name_mem _ _ hm)
    have b := name_inj _ (name_mem _ _ hn)
    rw [e1] at a
    rw [a] at b
    exact congrArg (·.1) (Option.some.inj b)
  have ei : idx i = idx j := by rw [idx_op i hi, idx_op j hj, eo]
  have op_eq := eo
  clear h
  cases i with
  | rr op r1 r2 =>
    cases j with
    | rr op' r1' r2' =>
      obtain ⟨_, _, _, _, a, b⟩ := hi
      obtain ⟨_, _, _, _, a', b'⟩ := hj
      simp only [Spec.operands, String.toList_append, List.append_assoc, k1, k2, k3, k4, k5, k6, k7, List.cons_append, List.nil_append] at e2
      have eo : op = op' := eo
      obtain ⟨f0, _, e2⟩ := num_cut r1 r1' (by omega) (by omega) _ _ _ _ (by decide) (by decide) e2
      obtain ⟨f1, _, e2⟩ := num_cut r2 r2' (by omega) (by omega) _ _ _ _ (by decide) (by decide) e2
      subst eo f0 f1
      rfl
    | _ => simp [idx] at ei
  | spm r1 x =>
    cases j with
    | spm r1' x' =>
      obtain ⟨a, b⟩ := hi
      obtain ⟨a', b'⟩ := hj
      simp only [Spec.operands, String.toList_append, List.append_assoc, k1, k2, k3, k4, k5, k6, k7, List.cons_append, List.nil_append] at e2
      obtain ⟨f0, _, e2⟩ := num_cut r1 r1' (by omega) (by omega) _ _ _ _ (by decide) (by decide) e2
      subst f0
      rfl
    | _ => simp [idx] at ei
  | svc i =>
    cases j with
    | svc i' =>
      have a : i < 256 := hi
      have a' : i' < 256 := hj
      simp only [Spec.operands, String.toList_append, List.append_assoc, k1, k2, k3, k4, k5, k6, k7, List.cons_append, List.nil_append] at e2
      obtain ⟨f0, e2⟩ := hex2_cut i i' (by omega) (by omega) _ _ e2
      subst f0
      rfl
    | _ => simp [idx] at ei
  | rx op r1 x2 b2 d2 =>
    cases j with
    | rx op' r1' x2' b2' d2' =>
      obtain ⟨_, _, _, a, b, c, d⟩ := hi
      obtain ⟨_, _, _, a', b', c', d'⟩ := hj
      simp only [Spec.operands, String.toList_append, List.append_assoc, k1, k2, k3, k4, k5, k6, k7, List.cons_append, List.nil_append] at e2
      have eo : op = op' := eo
      obtain ⟨f0, _, e2⟩ := num_cut r1 r1' (by omega) (by omega) _ _ _ _ (by decide) (by decide) e2
      obtain ⟨f1, e2⟩ := disp_cut d2 d2' (by omega) (by omega) _ _ e2
      try simp only [List.cons.injEq, true_and] at e2
      obtain ⟨f2, _, e2⟩ := num_cut x2 x2' (by omega) (by omega) _ _ _ _ (by decide) (by decide) e2
      obtain ⟨f3, _, e2⟩ := num_cut b2 b2' (by omega) (by omega) _ _ _ _ (by decide) (by decide) e2
      subst eo f0 f1 f2 f3
      rfl
    | _ => simp [idx] at ei
  | rs op r1 r3 b2 d2 =>
    cases j with
    | rs op' r1' r3' b2' d2' =>
      obtain ⟨_, a, b, c, d⟩ := hi
      obtain ⟨_, a', b', c', d'⟩ := hj
      simp only [Spec.operands, String.toList_append, List.append_assoc, k1, k2, k3, k4, k5, k6, k7, List.cons_append, List.nil_append] at e2
      have eo : op = op' := eo
      obtain ⟨f0, _, e2⟩ := num_cut r1 r1' (by omega) (by omega) _ _ _ _ (by decide) (by decide) e2
      obtain ⟨f1, _, e2⟩ := num_cut r3 r3' (by omega) (by omega) _ _ _ _ (by decide) (by decide) e2
      obtain ⟨f2, g2, e2⟩ := addr_cut d2 b2 d2' b2' (by omega) (by omega) (by omega) (by omega) _ (by decide) _ _ e2
      subst eo f0 f1 f2 g2
      rfl
    | _ => simp [idx] at ei
  | shift op r1 x b2 d2 =>
    cases j with
    | shift op' r1' x' b2' d2' =>
      obtain ⟨_, _, a, b, c, d⟩ := hi
      obtain ⟨_, _, a', b', c', d'⟩ := hj
      simp only [Spec.operands, String.toList_append, List.append_assoc, k1, k2, k3, k4, k5, k6, k7, List.cons_append, List.nil_append] at e2
      have eo : op = op' := eo
      obtain ⟨f0, _, e2⟩ := num_cut r1 r1' (by omega) (by omega) _ _ _ _ (by decide) (by decide) e2
      obtain ⟨f1, g1, e2⟩ := addr_cut d2 b2 d2' b2' (by omega) (by omega) (by omega) (by omega) _ (by decide) _ _ e2
      subst eo f0 f1 g1
      rfl
    | _ => simp [idx] at ei
  | si op i2 b1 d1 =>
    cases j with
    | si op' i2' b1' d1' =>
      obtain ⟨_, a, b, c⟩ := hi
      obtain ⟨_, a', b', c'⟩ := hj
      simp only [Spec.operands, String.toList_append, List.append_assoc, k1, k2, k3, k4, k5, k6, k7, List.cons_append, List.nil_append] at e2
      have eo : op = op' := eo
      obtain ⟨f0, g0, e2⟩ := addr_cut d1 b1 d1' b1' (by omega) (by omega) (by omega) (by omega) _ (by decide) _ _ e2
      obtain ⟨f1, e2⟩ := hex2_cut i2 i2' (by omega) (by omega) _ _ e2
      subst eo f0 g0 f1
      rfl
    | _ => simp [idx] at ei
  | s op x b1 d1 =>
    cases j with
    | s op' x' b1' d1' =>
      obtain ⟨_, a, b, c⟩ := hi
      obtain ⟨_, a', b', c'⟩ := hj
      simp only [Spec.operands, String.toList_append, List.append_assoc, k1, k2, k3, k4, k5, k6, k7, List.cons_append, List.nil_append] at e2
      have eo : op = op' := eo
      obtain ⟨f0, g0, e2⟩ := addr_cut d1 b1 d1' b1' (by omega) (by omega) (by omega) (by omega) _ (by decide) _ _ e2
      subst eo f0 g0
      rfl
    | _ => simp [idx] at ei
  | ss op l b1 d1 b2 d2 =>
    cases j with
    | ss op' l' b1' d1' b2' d2' =>
      obtain ⟨_, _, _, a, b, c, d, e⟩ := hi
      obtain ⟨_, _, _, a', b', c', d', e'⟩ := hj
      simp only [Spec.operands, String.toList_append, List.append_assoc, k1, k2, k3, k4, k5, k6, k7, List.cons_append, List.nil_append] at e2
      have eo : op = op' := eo
      obtain ⟨f0, e2⟩ := disp_cut d1 d1' (by omega) (by omega) _ _ e2
      try simp only [List.cons.injEq, true_and] at e2
      obtain ⟨f1, g1, e2⟩ := len_cut l l' b1 b1' (by omega) (by omega) (by omega) (by omega) _ _ e2
      simp only [List.cons.injEq, true_and] at e2
      obtain ⟨f2, e2⟩ := disp_cut d2 d2' (by omega) (by omega) _ _ e2
      try simp only [List.cons.injEq, true_and] at e2
      obtain ⟨f3, _, e2⟩ := num_cut b2 b2' (by omega) (by omega) _ _ _ _ (by decide) (by decide) e2
      subst eo f0 f1 g1 f2 f3
      rfl
    | _ => simp [idx] at ei
  | ss2 op l1 l2 b1 d1 b2 d2 =>
    cases j with
    | ss2 op' l1' l2' b1' d1' b2' d2' =>
      obtain ⟨_, _, _, a, b, c, d, e, f⟩ := hi
      obtain ⟨_, _, _, a', b', c', d', e', f'⟩ := hj
      simp only [Spec.operands, String.toList_append, List.append_assoc, k1, k2, k3, k4, k5, k6, k7, List.cons_append, List.nil_append] at e2
      have eo : op = op' := eo
      obtain ⟨f0, e2⟩ := disp_cut d1 d1' (by omega) (by omega) _ _ e2
      try simp only [List.cons.injEq, true_and] at e2
      obtain ⟨f1, g1, e2⟩ := len_cut l1 l1' b1 b1' (by omega) (by omega) (by omega) (by omega) _ _ e2
      simp only [List.cons.injEq, true_and] at e2
      obtain ⟨f2, e2⟩ := disp_cut d2 d2' (by omega) (by omega) _ _ e2
      try simp only [List.cons.injEq, true_and] at e2
      obtain ⟨f3, _, e2⟩ := num_cut l2 l2' (by omega) (by omega) _ _ _ _ (by decide) (by decide) e2
      obtain ⟨f4, _, e2⟩ := num_cut b2 b2' (by omega) (by omega) _ _ _ _ (by decide) (by decide) e2
      subst eo f0 f1 g1 f2 f3 f4
      rfl
    | _ => simp [idx] at ei

/-- Two places of storage that give the same trace line have the same instruction, except for
fields without meaning. -/
theorem C101_trace_partial (i j : Instr) (hi : i.Valid) (hj : j.Valid) (h4 : i.op ≠ 0x84) (h5 : i.op ≠ 0x85)
    (h4' : j.op ≠ 0x84) (h5' : j.op ≠ 0x85) (l k : List Nat) (h : print (i.encode ++ l) = print (j.encode ++ k)) :
    i.meaning = j.meaning := by
  rw [C60_text_partial i hi h4 h5, C60_text_partial j hj h4' h5'] at h
  injection h with h
  exact C101_injective i j hi hj (String.toList_injective h)

example : (Instr.ss2 0xfa 7 3 11 0x100 12 0x208).Valid ∧ (Instr.shift 0x8b 3 9 0 4).Valid
    ∧ (Instr.rr 0x1a 5 12).Valid ∧ (Instr.rx 0x47 15 0 12 0x7fe).Valid := by decide +kernel

/-- Write direct and read direct are shown without their fields. -/
theorem C101_violated_direct (a b c d e f : Nat) (l k : List Nat) :
    print ((Instr.si 0x84 a b c).encode ++ l) = print ((Instr.si 0x84 d e f).encode ++ k) := by
  rw [(C60_violated_direct l).1, (C60_violated_direct k).1]

end Verif.Disasm
