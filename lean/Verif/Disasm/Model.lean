import Verif.Card.Model

/-!
# The instruction printer (src/device/disassem.c)

`val` is the list of the bytes that can be read at the pointer; a read behind it is `oob`.
The text is the content of `buffer` without the terminator.
-/

namespace Verif.Disasm

open Verif.Card (Res look)

/-- `%d` of a number that is not negative. -/
def dec (n : Nat) : List Char := Nat.toDigits 10 n

/-- `%01x`. -/
def hex1 (n : Nat) : List Char := Nat.toDigits 16 n

/-- `%02x`. -/
def hex2 (n : Nat) : List Char := if n < 16 then '0' :: Nat.toDigits 16 n else Nat.toDigits 16 n

/-- `optab`, disassem.c 222-372: opcode, name, type.  The types are those of 210-220:
RR 1, RX 2, RS 3, SI 4, SS 5; ONEOP 8, IMDOP 16, TWOOP 24, ZEROOP 32. -/
def optab : List (Nat × String × Nat) :=
  [(0x04, "SPM", 9), (0x05, "BALR", 1), (0x06, "BCTR", 1), (0x07, "BCR", 1), (0x08, "SSK", 1), (0x09, "ISK", 1),
   (0x0a, "SVC", 17), (0x10, "LPR", 1), (0x11, "LNR", 1), (0x12, "LTR", 1), (0x13, "LCR", 1), (0x14, "NR", 1),
   (0x16, "OR", 1), (0x17, "XR", 1), (0x15, "CLR", 1), (0x19, "CR", 1), (0x18, "LR", 1), (0x1a, "AR", 1),
   (0x1b, "SR", 1), (0x1c, "MR", 1), (0x1d, "DR", 1), (0x1e, "ALR", 1), (0x1f, "SLR", 1), (0x20, "LPDR", 1),
   (0x21, "LNDR", 1), (0x22, "LTDR", 1), (0x23, "LCDR", 1), (0x24, "HDR", 1), (0x25, "LRDR", 1), (0x26, "MXR", 1),
   (0x27, "MXDR", 1), (0x28, "LDR", 1), (0x29, "CDR", 1), (0x2a, "ADR", 1), (0x2b, "SDR", 1), (0x2c, "MDR", 1),
   (0x2d, "DDR", 1), (0x2e, "AWR", 1), (0x2f, "SWR", 1), (0x30, "LPER", 1), (0x31, "LNER", 1), (0x32, "LTER", 1),
   (0x33, "LCER", 1), (0x34, "HER", 1), (0x35, "LRER", 1), (0x36, "AXR", 1), (0x37, "SXR", 1), (0x38, "LER", 1),
   (0x39, "CER", 1), (0x3a, "AER", 1), (0x3b, "SER", 1), (0x3c, "MER", 1), (0x3d, "DER", 1), (0x3e, "AUR", 1),
   (0x3f, "SUR", 1), (0x40, "STH", 2), (0x41, "LA", 2), (0x42, "STC", 2), (0x43, "IC", 2), (0x44, "EX", 2),
   (0x45, "BAL", 2), (0x46, "BCT", 2), (0x47, "BC", 2), (0x48, "LH", 2), (0x49, "CH", 2), (0x4a, "AH", 2),
   (0x4b, "SH", 2), (0x4c, "MH", 2), (0x4e, "CVD", 2), (0x4f, "CVB", 2), (0x50, "ST", 2), (0x54, "N", 2),
   (0x55, "CL", 2), (0x56, "O", 2), (0x57, "X", 2), (0x58, "L", 2), (0x59, "C", 2), (0x5a, "A", 2),
   (0x5b, "S", 2), (0x5c, "M", 2), (0x5d, "D", 2), (0x5e, "AL", 2), (0x5f, "SL", 2), (0x60, "STD", 2),
   (0x67, "MXD", 2), (0x68, "LD", 2), (0x69, "CD", 2), (0x6a, "AD", 2), (0x6b, "SD", 2), (0x6c, "MD", 2),
   (0x6d, "DD", 2), (0x6e, "AW", 2), (0x6f, "SW", 2), (0x70, "STE", 2), (0x78, "LE", 2), (0x79, "CE", 2),
   (0x7a, "AE", 2), (0x7b, "SE", 2), (0x7c, "ME", 2), (0x7d, "DE", 2), (0x7e, "AU", 2), (0x7f, "SU", 2),
   (0x80, "SSM", 36), (0x82, "LPSW", 36), (0x83, "DIAG", 4), (0x86, "BXH", 27), (0x87, "BXLE", 27), (0x88, "SRL", 35),
   (0x89, "SLL", 35), (0x8a, "SRA", 35), (0x8b, "SLA", 35), (0x8c, "SRDL", 35), (0x8d, "SLDL", 35), (0x8e, "SRDA", 35),
   (0x8f, "SLDA", 35), (0x90, "STM", 27), (0x91, "TM", 4), (0x92, "MVI", 4), (0x93, "TS", 36), (0x94, "NI", 4),
   (0x95, "CLI", 4), (0x96, "OI", 4), (0x97, "XI", 4), (0x98, "LM", 27), (0x9c, "SIO", 36), (0x9d, "TIO", 36),
   (0x9e, "HIO", 36), (0x9f, "TCH", 36), (0xd1, "MVN", 5), (0xd2, "MVC", 5), (0xd3, "MVZ", 5), (0xd4, "NC", 5),
   (0xd5, "CLC", 5), (0xd6, "OC", 5), (0xd7, "XC", 5), (0xdc, "TR", 5), (0xdd, "TRT", 5), (0xde, "ED", 5),
   (0xdf, "EDMK", 5), (0xf1, "MVO", 29), (0xf2, "PACK", 29), (0xf3, "UNPK", 29), (0xf8, "ZAP", 29), (0xf9, "CP", 29),
   (0xfa, "AP", 29), (0xfb, "SP", 29), (0xfc, "MP", 29), (0xfd, "DP", 29)]

/-- `val[i]`. -/
def at' (val : List Nat) (i : Nat) : Res Nat := look val[i]?

/-- One name of the table, disassem.c 382-444: the switch on the length type. -/
def form (name : String) (type : Nat) (val : List Nat) : Res (List Char) :=
  match type &&& 7 with
  | 1 => (at' val 1).bind (fun v1 =>
      if type &&& 16 ≠ 0 then .ok (name.toList ++ [' '] ++ hex2 v1 ++ [' '])
      else if type &&& 8 ≠ 0 then .ok (name.toList ++ [' '] ++ dec ((v1 >>> 4) &&& 0xf) ++ [' '])
      else .ok (name.toList ++ [' '] ++ dec ((v1 >>> 4) &&& 0xf) ++ [','] ++ dec (v1 &&& 0xf) ++ [' ']))
  | 2 => (at' val 1).bind (fun v1 => (at' val 2).bind (fun v2 => (at' val 3).bind (fun v3 =>
      .ok (name.toList ++ [' '] ++ dec ((v1 >>> 4) &&& 0xf) ++ [','] ++ hex1 (v2 &&& 0xf) ++ hex2 (v3 &&& 0xff)
        ++ ['('] ++ dec (v1 &&& 0xf) ++ [','] ++ dec ((v2 >>> 4) &&& 0xf) ++ [')', ' ']))))
  | 3 => (at' val 1).bind (fun v1 => (at' val 2).bind (fun v2 => (at' val 3).bind (fun v3 =>
      .ok (name.toList ++ [' '] ++ dec ((v1 >>> 4) &&& 0xf) ++ [',']
        ++ (if type &&& 32 = 0 then dec (v1 &&& 0xf) ++ [','] else [])
        ++ hex1 (v2 &&& 0xf) ++ hex2 (v3 &&& 0xff)
        ++ (if v2 &&& 0xf0 ≠ 0 then ['('] ++ dec ((v2 >>> 4) &&& 0xf) ++ [')'] else [])))))
  | 4 => (at' val 2).bind (fun v2 => (at' val 3).bind (fun v3 =>
      (if type &&& 32 = 0 then (at' val 1).bind (fun v1 => .ok ([','] ++ hex2 (v1 &&& 0xff))) else .ok []).bind (fun e =>
      .ok (name.toList ++ [' '] ++ hex1 (v2 &&& 0xf) ++ hex2 (v3 &&& 0xff)
        ++ (if v2 &&& 0xf0 ≠ 0 then ['('] ++ dec ((v2 >>> 4) &&& 0xf) ++ [')'] else []) ++ e))))
  | 5 => (at' val 1).bind (fun v1 => (at' val 2).bind (fun v2 => (at' val 3).bind (fun v3 =>
      (at' val 4).bind (fun v4 => (at' val 5).bind (fun v5 =>
      .ok (name.toList ++ [' '] ++ hex1 (v2 &&& 0xf) ++ hex2 (v3 &&& 0xff)
        ++ (if type &&& 24 ≠ 0 then ['('] ++ dec ((v1 >>> 4) &&& 0xf) else ['('] ++ dec (v1 &&& 0xff))
        ++ (if v2 &&& 0xf0 ≠ 0 then [','] ++ dec ((v2 >>> 4) &&& 0xf) else [])
        ++ [')', ','] ++ hex1 (v4 &&& 0xf) ++ hex2 (v5 &&& 0xff)
        ++ (if type &&& 24 ≠ 0 then ['('] ++ dec (v1 &&& 0xf) ++ [','] else ['('])
        ++ dec ((v4 >>> 4) &&& 0xf) ++ [')']))))))
  | _ => .ok []

/-- `print_inst`, disassem.c 374-452: what is given to `log_itrace_s`.  The first entry of
the table with the opcode is used (378-379, 446). -/
def print (val : List Nat) : Res (List Char) :=
  (at' val 0).bind (fun v0 =>
    match optab.find? (fun e => e.1 == v0) with
    | some e => (form e.2.1 e.2.2 val).bind (fun t => .ok (t ++ [' ']))
    | none => .ok (['?'] ++ hex2 v0 ++ ['?', ' ']))

end Verif.Disasm
