import Verif.Cpu50.Words10

/-!
# Model 2050: a word of MULTIPLY HALFWORD

Written by a script from the model itself; each lemma is the effect of one word of `/repo/src/model2050/ros.txt`
on the processor, with the text of the word as the listing names its fields.
-/

namespace Verif.Cpu50

attribute [local simp] exec needsChan front condA condB combine abBits nextBase leftBus leftIn rightBus rightIn uBus vBus ceB moverL moverR adCin ivStep smif dgStep cinW adder adStep lateB alStep ssEarly trStep protect ssLate wsStep wmStep upStep finish Out.bind ceBit fpStats Nat.testBit_eq_decide_div_mod_eq mov_whole

/-- Word 730. -/
theorem w730 : ros 0x730 = {
      lu := 0, mv := 0, zp := 1792, zf := 10, zn := 4, tr := 6, ws := 4, sf := 7, iv := 0, al := 0, wm := 0, up := 0,
      md := 0, lb := 1, mb := 0, dg := 7, ul := 1, ur := 1, ce := 15, lx := 1, tc := 1, ry := 0, ad := 1, ab := 1,
      bb := 1, ss := 18 } := by
  decide +kernel

/-- `730 qe580-e1 E=f 0+L>R,A |U:0 V:0 W:U>WL,U>WR>0 |LS:FN,J>LSA 7 |CNTlb=0 |DG:G1,2-1 |SS:E->BS,T30->S3 |A:1 B:1 Z:728 ` -/
theorem x730 (e : Env) (ex : Bool) (s : S) :
    exec e (ros 0x730) ex s = .ok { s with
      R := s.L, SAR := s.L &&& 16777215#32, alu := s.L, aob := s.L, u := 0#8, w := 0#8,
      G := (s.G &&& 15#8) - 1#8 &&& 15#8 ||| s.G - 16#8 &&& 240#8, BS := 15#4, LB := 0#2, EDST := 3#2,
      LSA := s.FN ++ s.J, St := { s.St with s3 := s.L &&& 2#32 != 0#32 }, G1NEG := s.G1NEG || s.G &&& 240#8 == 0#8,
      G2NEG := s.G2NEG || s.G &&& 15#8 == 0#8, initMem := true, ROAR := 0x72b } := by
  rw [w730]; simp

end Verif.Cpu50
