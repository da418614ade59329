/-!
# What an instruction trace shows (specification)

The instructions of System/360 with their fields, their coding in storage and their text.
Nothing here refers to the program.
-/

namespace Verif.Disasm.Spec

/-- The operation codes and mnemonics of the Principles of Operation (GA22-6821), with the
extended precision instructions.  Diagnose has no mnemonic there; the program's is used. -/
def opcodes : List (Nat × String) :=
  [(0x04, "SPM"), (0x05, "BALR"), (0x06, "BCTR"), (0x07, "BCR"), (0x08, "SSK"), (0x09, "ISK"),
   (0x0a, "SVC"),
   (0x10, "LPR"), (0x11, "LNR"), (0x12, "LTR"), (0x13, "LCR"), (0x14, "NR"), (0x15, "CLR"),
   (0x16, "OR"), (0x17, "XR"), (0x18, "LR"), (0x19, "CR"), (0x1a, "AR"), (0x1b, "SR"),
   (0x1c, "MR"), (0x1d, "DR"), (0x1e, "ALR"), (0x1f, "SLR"),
   (0x20, "LPDR"), (0x21, "LNDR"), (0x22, "LTDR"), (0x23, "LCDR"), (0x24, "HDR"),
   (0x25, "LRDR"), (0x26, "MXR"), (0x27, "MXDR"), (0x28, "LDR"), (0x29, "CDR"), (0x2a, "ADR"),
   (0x2b, "SDR"), (0x2c, "MDR"), (0x2d, "DDR"), (0x2e, "AWR"), (0x2f, "SWR"),
   (0x30, "LPER"), (0x31, "LNER"), (0x32, "LTER"), (0x33, "LCER"), (0x34, "HER"),
   (0x35, "LRER"), (0x36, "AXR"), (0x37, "SXR"), (0x38, "LER"), (0x39, "CER"), (0x3a, "AER"),
   (0x3b, "SER"), (0x3c, "MER"), (0x3d, "DER"), (0x3e, "AUR"), (0x3f, "SUR"),
   (0x40, "STH"), (0x41, "LA"), (0x42, "STC"), (0x43, "IC"), (0x44, "EX"), (0x45, "BAL"),
   (0x46, "BCT"), (0x47, "BC"), (0x48, "LH"), (0x49, "CH"), (0x4a, "AH"), (0x4b, "SH"),
   (0x4c, "MH"), (0x4e, "CVD"), (0x4f, "CVB"),
   (0x50, "ST"), (0x54, "N"), (0x55, "CL"), (0x56, "O"), (0x57, "X"), (0x58, "L"), (0x59, "C"),
   (0x5a, "A"), (0x5b, "S"), (0x5c, "M"), (0x5d, "D"), (0x5e, "AL"), (0x5f, "SL"),
   (0x60, "STD"), (0x67, "MXD"), (0x68, "LD"), (0x69, "CD"), (0x6a, "AD"), (0x6b, "SD"),
   (0x6c, "MD"), (0x6d, "DD"), (0x6e, "AW"), (0x6f, "SW"),
   (0x70, "STE"), (0x78, "LE"), (0x79, "CE"), (0x7a, "AE"), (0x7b, "SE"), (0x7c, "ME"),
   (0x7d, "DE"), (0x7e, "AU"), (0x7f, "SU"),
   (0x80, "SSM"), (0x82, "LPSW"), (0x83, "DIAG"), (0x84, "WRD"), (0x85, "RDD"), (0x86, "BXH"),
   (0x87, "BXLE"), (0x88, "SRL"), (0x89, "SLL"), (0x8a, "SRA"), (0x8b, "SLA"), (0x8c, "SRDL"),
   (0x8d, "SLDL"), (0x8e, "SRDA"), (0x8f, "SLDA"),
   (0x90, "STM"), (0x91, "TM"), (0x92, "MVI"), (0x93, "TS"), (0x94, "NI"), (0x95, "CLI"),
   (0x96, "OI"), (0x97, "XI"), (0x98, "LM"), (0x9c, "SIO"), (0x9d, "TIO"), (0x9e, "HIO"),
   (0x9f, "TCH"),
   (0xd1, "MVN"), (0xd2, "MVC"), (0xd3, "MVZ"), (0xd4, "NC"), (0xd5, "CLC"), (0xd6, "OC"),
   (0xd7, "XC"), (0xdc, "TR"), (0xdd, "TRT"), (0xde, "ED"), (0xdf, "EDMK"),
   (0xf1, "MVO"), (0xf2, "PACK"), (0xf3, "UNPK"), (0xf8, "ZAP"), (0xf9, "CP"), (0xfa, "AP"),
   (0xfb, "SP"), (0xfc, "MP"), (0xfd, "DP")]

def mnemonic (op : Nat) : Option String := (opcodes.find? (fun e => e.1 == op)).map (·.2)

/-- The length of an instruction in bytes: the two high bits of the operation code. -/
def length (op : Nat) : Nat :=
  if op < 0x40 then 2 else if op < 0xc0 then 4 else 6

/-- An instruction with its fields.  `ign` is a field that has no meaning. -/
inductive Instr where
  | rr (op r1 r2 : Nat)
  | spm (r1 ign : Nat)
  | svc (i : Nat)
  | rx (op r1 x2 b2 d2 : Nat)
  | rs (op r1 r3 b2 d2 : Nat)
  | shift (op r1 ign b2 d2 : Nat)
  | si (op i2 b1 d1 : Nat)
  | s (op ign b1 d1 : Nat)
  | ss (op l b1 d1 b2 d2 : Nat)
  | ss2 (op l1 l2 b1 d1 b2 d2 : Nat)
deriving DecidableEq, Repr

namespace Instr

def op : Instr → Nat
  | rr op _ _ => op | spm _ _ => 0x04 | svc _ => 0x0a | rx op _ _ _ _ => op
  | rs op _ _ _ _ => op | shift op _ _ _ _ => op | si op _ _ _ => op | s op _ _ _ => op
  | ss op _ _ _ _ _ => op | ss2 op _ _ _ _ _ _ => op

/-- The instruction in storage. -/
def encode : Instr → List Nat
  | rr op r1 r2 => [op, 16 * r1 + r2]
  | spm r1 x => [0x04, 16 * r1 + x]
  | svc i => [0x0a, i]
  | rx op r1 x2 b2 d2 => [op, 16 * r1 + x2, 16 * b2 + d2 / 256, d2 % 256]
  | rs op r1 r3 b2 d2 => [op, 16 * r1 + r3, 16 * b2 + d2 / 256, d2 % 256]
  | shift op r1 x b2 d2 => [op, 16 * r1 + x, 16 * b2 + d2 / 256, d2 % 256]
  | si op i2 b1 d1 => [op, i2, 16 * b1 + d1 / 256, d1 % 256]
  | s op x b1 d1 => [op, x, 16 * b1 + d1 / 256, d1 % 256]
  | ss op l b1 d1 b2 d2 => [op, l, 16 * b1 + d1 / 256, d1 % 256, 16 * b2 + d2 / 256, d2 % 256]
  | ss2 op l1 l2 b1 d1 b2 d2 =>
      [op, 16 * l1 + l2, 16 * b1 + d1 / 256, d1 % 256, 16 * b2 + d2 / 256, d2 % 256]

/-- The instructions with an assigned operation code of their format and fields in range. -/
def Valid : Instr → Prop
  | rr op r1 r2 => (mnemonic op).isSome = true ∧ op < 0x40 ∧ op ≠ 0x04 ∧ op ≠ 0x0a ∧ r1 < 16 ∧ r2 < 16
  | spm r1 x => r1 < 16 ∧ x < 16
  | svc i => i < 256
  | rx op r1 x2 b2 d2 => (mnemonic op).isSome = true ∧ 0x40 ≤ op ∧ op < 0x80 ∧ r1 < 16 ∧ x2 < 16 ∧ b2 < 16 ∧ d2 < 4096
  | rs op r1 r3 b2 d2 => op ∈ [0x86, 0x87, 0x90, 0x98] ∧ r1 < 16 ∧ r3 < 16 ∧ b2 < 16 ∧ d2 < 4096
  | shift op r1 x b2 d2 => 0x88 ≤ op ∧ op < 0x90 ∧ r1 < 16 ∧ x < 16 ∧ b2 < 16 ∧ d2 < 4096
  | si op i2 b1 d1 =>
      op ∈ [0x83, 0x84, 0x85, 0x91, 0x92, 0x94, 0x95, 0x96, 0x97] ∧ i2 < 256 ∧ b1 < 16 ∧ d1 < 4096
  | s op x b1 d1 => op ∈ [0x80, 0x82, 0x93, 0x9c, 0x9d, 0x9e, 0x9f] ∧ x < 256 ∧ b1 < 16 ∧ d1 < 4096
  | ss op l b1 d1 b2 d2 =>
      (mnemonic op).isSome = true ∧ 0xc0 ≤ op ∧ op < 0xf0 ∧ l < 256 ∧ b1 < 16 ∧ d1 < 4096 ∧ b2 < 16 ∧ d2 < 4096
  | ss2 op l1 l2 b1 d1 b2 d2 =>
      (mnemonic op).isSome = true ∧ 0xf0 ≤ op ∧ op < 0x100 ∧ l1 < 16 ∧ l2 < 16 ∧ b1 < 16 ∧ d1 < 4096 ∧ b2 < 16
        ∧ d2 < 4096

instance : (i : Instr) → Decidable i.Valid
  | rr .. | spm .. | svc .. | rx .. | rs .. | shift .. | si .. | s .. | ss .. | ss2 .. => by
      unfold Valid; infer_instance

/-- The instruction without the fields that have no meaning. -/
def meaning : Instr → Instr
  | spm r1 _ => spm r1 0
  | shift op r1 _ b2 d2 => shift op r1 0 b2 d2
  | s op _ b1 d1 => s op 0 b1 d1
  | i => i

end Instr

/-- A number in decimal, a digit in hexadecimal. -/
def num (n : Nat) : String := toString n
def digit (n : Nat) : String := String.singleton ("0123456789abcdef".toList.getD n '?')

def hex2 (n : Nat) : String := digit (n / 16) ++ digit (n % 16)

/-- A displacement, three hexadecimal digits. -/
def disp (d : Nat) : String := digit (d / 256) ++ digit (d / 16 % 16) ++ digit (d % 16)

/-- A displacement with its base register; base 0 is not shown. -/
def addr (d b : Nat) : String := disp d ++ (if b = 0 then "" else "(" ++ num b ++ ")")

/-- The text of an instruction after its mnemonic and a blank, in the order of the assembler. -/
def operands : Instr → String
  | .rr _ r1 r2 => num r1 ++ "," ++ num r2 ++ "  "
  | .spm r1 _ => num r1 ++ "  "
  | .svc i => hex2 i ++ "  "
  | .rx _ r1 x2 b2 d2 => num r1 ++ "," ++ disp d2 ++ "(" ++ num x2 ++ "," ++ num b2 ++ ")  "
  | .rs _ r1 r3 b2 d2 => num r1 ++ "," ++ num r3 ++ "," ++ addr d2 b2 ++ " "
  | .shift _ r1 _ b2 d2 => num r1 ++ "," ++ addr d2 b2 ++ " "
  | .si _ i2 b1 d1 => addr d1 b1 ++ "," ++ hex2 i2 ++ " "
  | .s _ _ b1 d1 => addr d1 b1 ++ " "
  | .ss _ l b1 d1 b2 d2 =>
      disp d1 ++ "(" ++ num l ++ (if b1 = 0 then "" else "," ++ num b1) ++ ")," ++ disp d2 ++ "(" ++ num b2 ++ ") "
  | .ss2 _ l1 l2 b1 d1 b2 d2 =>
      disp d1 ++ "(" ++ num l1 ++ (if b1 = 0 then "" else "," ++ num b1) ++ "),"
        ++ disp d2 ++ "(" ++ num l2 ++ "," ++ num b2 ++ ") "

def text (i : Instr) : String := (mnemonic i.op).getD "" ++ " " ++ operands i

example : text (.rx 0x58 1 2 3 0xabc) = "L 1,abc(2,3)  " := by decide +kernel
example : text (.ss 0xd2 79 11 0x123 12 0) = "MVC 123(79,11),000(12) " := by decide +kernel
example : text (.shift 0x89 4 0 0 2) = "SLL 4,002 " := by decide +kernel

end Verif.Disasm.Spec
