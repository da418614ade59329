import Verif.Cpu50.Words12

/-!
# Model 2050: words of SET SYSTEM MASK

Written by a script from the model itself; each lemma is the effect of one word of `/repo/src/model2050/ros.txt`
on the processor, with the text of the word as the listing names its fields.
-/

namespace Verif.Cpu50

attribute [local simp] exec needsChan front condA condB combine abBits nextBase leftBus leftIn rightBus rightIn uBus vBus ceB moverL moverR adCin ivStep smif dgStep cinW adder adStep lateB alStep ssEarly trStep protect ssLate wsStep wmStep upStep finish Out.bind ceBit fpStats Nat.testBit_eq_decide_div_mod_eq mov_whole

/-- Word 750. -/
theorem w750 : ros 0x750 = {
      lu := 0, mv := 0, zp := 1792, zf := 11, zn := 4, tr := 7, ws := 4, sf := 7, iv := 0, al := 30, wm := 0, up := 2,
      md := 0, lb := 0, mb := 0, dg := 0, ul := 1, ur := 1, ce := 0, lx := 0, tc := 1, ry := 0, ad := 1, ab := 0,
      bb := 1, ss := 0 } := by
  decide +kernel

/-- `750 qj200-l4 E=0 0+0>L AL:D |U:0 V:0 W:U>WL,U>WR>0 |LS:FN,J>LSA 7 |A:0 B:1 Z:72c ` -/
theorem x750 (e : Env) (ex : Bool) (s : S) :
    exec e (ros 0x750) ex s = .ok { s with
      L := s.SDR, alu := 0#32, aob := s.SDR, u := 0#8, w := 0#8, EDST := 3#2, LSA := s.FN ++ s.J, ROAR := 0x72d } := by
  rw [w750]; simp

/-- Word 72d. -/
theorem w72d : ros 0x72d = {
      lu := 7, mv := 0, zp := 1792, zf := 11, zn := 4, tr := 0, ws := 3, sf := 2, iv := 0, al := 0, wm := 1, up := 2,
      md := 0, lb := 0, mb := 0, dg := 0, ul := 1, ur := 1, ce := 7, lx := 0, tc := 1, ry := 0, ad := 1, ab := 1,
      bb := 1, ss := 0 } := by
  decide +kernel

/-- `72d qj200-l5 E=7 0+0>T |U:LLB>U V:0 W:U>WL,U>WR>W>MMB |LS:WS,E>LSA LS>R>LS |A:1 B:1 Z:72c ` -/
theorem x72d (e : Env) (ex : Bool) (s : S) :
    exec e (ros 0x72d) ex s = .ok { s with
      R := s.LS 23#6, M := putByte s.M s.MB (byteOf s.L s.LB), alu := 0#32, aob := 0#32, u := byteOf s.L s.LB,
      w := byteOf s.L s.LB, EDST := 3#2, LSA := 23#6, ROAR := 0x72f } := by
  rw [w72d]; simp

/-- Word 72f. -/
theorem w72f : ros 0x72f = {
      lu := 7, mv := 0, zp := 2304, zf := 11, zn := 4, tr := 2, ws := 3, sf := 0, iv := 0, al := 0, wm := 5, up := 2,
      md := 0, lb := 0, mb := 0, dg := 0, ul := 1, ur := 1, ce := 7, lx := 0, tc := 1, ry := 2, ad := 1, ab := 1,
      bb := 1, ss := 0 } := by
  decide +kernel

/-- `72f qj200-l6 E=7 M+0>R0 |U:LLB>U V:0 W:U>WL,U>WR>W>PSW0 |LS:WS,E>LSA R>LS |A:1 B:1 Z:92c ` -/
theorem x72f (e : Env) (ex : Bool) (s : S) :
    exec e (ros 0x72f) ex s = .ok { s with
      R := s.M &&& 4278190080#32 ||| s.R &&& 16777215#32, alu := s.M, aob := s.M, u := byteOf s.L s.LB,
      w := byteOf s.L s.LB, MASK := byteOf s.L s.LB, EDST := 3#2, LSA := 23#6, ROAR := 0x92f,
      LS := lsPut s.LS (23#6) (s.M &&& 4278190080#32 ||| s.R &&& 16777215#32) } := by
  rw [w72f]; simp

end Verif.Cpu50
