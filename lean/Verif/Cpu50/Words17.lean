import Verif.Cpu50.Words9

/-!
# Model 2050: words of LE

Written by a script from the model itself; each lemma is the effect of one word of `/repo/src/model2050/ros.txt`
on the processor, with the text of the word as the listing names its fields.
-/

namespace Verif.Cpu50

attribute [local simp] exec needsChan front condA condB combine abBits nextBase leftBus leftIn rightBus rightIn uBus vBus ceB moverL moverR adCin ivStep smif dgStep cinW adder adStep lateB alStep ssEarly trStep protect ssLate wsStep wmStep upStep finish Out.bind ceBit fpStats Nat.testBit_eq_decide_div_mod_eq mov_whole

/-- Word 11c. -/
theorem w11c : ros 0x11c = {
      lu := 0, mv := 0, zp := 832, zf := 0, zn := 4, tr := 1, ws := 4, sf := 6, iv := 0, al := 0, wm := 0, up := 2,
      md := 0, lb := 0, mb := 0, dg := 0, ul := 1, ur := 1, ce := 15, lx := 1, tc := 1, ry := 3, ad := 1, ab := 0,
      bb := 1, ss := 8 } := by
  decide +kernel

/-- `11c qg010-a1 E=f M23+L>R |U:0 V:0 W:U>WL,U>WR>0 |LS:FN,J>LSA LS>L>LS |SS:E->S03 |A:0 B:1 Z:340 ` -/
theorem x11c (e : Env) (ex : Bool) (s : S) :
    exec e (ros 0x11c) ex s = .ok { s with
      R := s.L + (s.M &&& 65535#32), L := s.LS (s.FN ++ s.J), alu := s.L + (s.M &&& 65535#32),
      aob := s.L + (s.M &&& 65535#32), u := 0#8, w := 0#8, EDST := 3#2, LSA := s.FN ++ s.J,
      St := { s.St with s0 := true, s1 := true, s2 := true, s3 := true }, ROAR := 0x341 } := by
  rw [w11c]; simp

/-- Word 11d. -/
theorem w11d : ros 0x11d = {
      lu := 0, mv := 0, zp := 832, zf := 0, zn := 4, tr := 1, ws := 4, sf := 6, iv := 0, al := 0, wm := 0, up := 2,
      md := 0, lb := 0, mb := 0, dg := 0, ul := 1, ur := 1, ce := 15, lx := 0, tc := 1, ry := 3, ad := 1, ab := 0,
      bb := 1, ss := 8 } := by
  decide +kernel

/-- `11d qg010-e1 E=f M23+0>R |U:0 V:0 W:U>WL,U>WR>0 |LS:FN,J>LSA LS>L>LS |SS:E->S03 |A:0 B:1 Z:340 ` -/
theorem x11d (e : Env) (ex : Bool) (s : S) :
    exec e (ros 0x11d) ex s = .ok { s with
      R := s.M &&& 65535#32, L := s.LS (s.FN ++ s.J), alu := s.M &&& 65535#32, aob := s.M &&& 65535#32, u := 0#8,
      w := 0#8, EDST := 3#2, LSA := s.FN ++ s.J, St := { s.St with s0 := true, s1 := true, s2 := true, s3 := true },
      ROAR := 0x341 } := by
  rw [w11d]; simp

/-- Word 11e. -/
theorem w11e : ros 0x11e = {
      lu := 0, mv := 0, zp := 2496, zf := 1, zn := 4, tr := 10, ws := 1, sf := 0, iv := 0, al := 0, wm := 0, up := 2,
      md := 0, lb := 0, mb := 0, dg := 0, ul := 1, ur := 1, ce := 15, lx := 1, tc := 1, ry := 3, ad := 1, ab := 20,
      bb := 1, ss := 8 } := by
  decide +kernel

/-- `11e qg010-j1 E=f M23+L>R,AW |U:0 V:0 W:U>WL,U>WR>0 |LS:WS1>LSA R>LS |SS:E->S03 |A:MD=FP B:1 Z:9c4 ` -/
theorem x11e (e : Env) (ex : Bool) (s : S) :
    exec e (ros 0x11e) ex s = .ok { s with
      R := s.L + (s.M &&& 65535#32), SAR := s.L + (s.M &&& 65535#32) &&& 16777215#32, alu := s.L + (s.M &&& 65535#32),
      aob := s.L + (s.M &&& 65535#32), u := 0#8, w := 0#8, EDST := 3#2, LSA := 17#6,
      St := { s.St with s0 := true, s1 := true, s2 := true, s3 := true },
      initMem := s.initMem || s.L + (s.M &&& 65535#32) &&& 16777215#32 &&& 3#32 == 0#32,
      ROAR := if s.L + (s.M &&& 65535#32) &&& 16777215#32 &&& 3#32 = 0#32 then 2500 ||| 2 * (s.MD &&& 9#4 == 0#4).toNat + 1 else 450,
      LS := lsPut s.LS (17#6) (s.L + (s.M &&& 65535#32)) } := by
  rw [w11e]; simp

/-- Word 11f. -/
theorem w11f : ros 0x11f = {
      lu := 0, mv := 0, zp := 2496, zf := 1, zn := 4, tr := 10, ws := 1, sf := 0, iv := 0, al := 0, wm := 0, up := 2,
      md := 0, lb := 0, mb := 0, dg := 0, ul := 1, ur := 1, ce := 15, lx := 0, tc := 1, ry := 3, ad := 1, ab := 20,
      bb := 1, ss := 8 } := by
  decide +kernel

/-- `11f qg010-n1 E=f M23+0>R,AW |U:0 V:0 W:U>WL,U>WR>0 |LS:WS1>LSA R>LS |SS:E->S03 |A:MD=FP B:1 Z:9c4 ` -/
theorem x11f (e : Env) (ex : Bool) (s : S) :
    exec e (ros 0x11f) ex s = .ok { s with
      R := s.M &&& 65535#32, SAR := s.M &&& 65535#32 &&& 16777215#32, alu := s.M &&& 65535#32, aob := s.M &&& 65535#32,
      u := 0#8, w := 0#8, EDST := 3#2, LSA := 17#6, St := { s.St with s0 := true, s1 := true, s2 := true, s3 := true },
      initMem := s.initMem || s.M &&& 65535#32 &&& 16777215#32 &&& 3#32 == 0#32,
      ROAR := if s.M &&& 65535#32 &&& 16777215#32 &&& 3#32 = 0#32 then 2500 ||| 2 * (s.MD &&& 9#4 == 0#4).toNat + 1 else 450,
      LS := lsPut s.LS (17#6) (s.M &&& 65535#32) } := by
  rw [w11f]; simp

/-- Word 341. -/
theorem w341 : ros 0x341 = {
      lu := 0, mv := 0, zp := 2496, zf := 1, zn := 4, tr := 10, ws := 1, sf := 0, iv := 0, al := 0, wm := 14, up := 2,
      md := 0, lb := 0, mb := 0, dg := 0, ul := 1, ur := 1, ce := 0, lx := 1, tc := 1, ry := 1, ad := 1, ab := 20,
      bb := 1, ss := 0 } := by
  decide +kernel

/-- `341 qg010-a5 E=0 R+L>R,AW |U:0 V:0 W:U>WL,U>WR>WR>F |LS:WS1>LSA R>LS |A:MD=FP B:1 Z:9c4 ` -/
theorem x341 (e : Env) (ex : Bool) (s : S) :
    exec e (ros 0x341) ex s = .ok { s with
      R := s.L + s.R, SAR := s.L + s.R &&& 16777215#32, alu := s.L + s.R, aob := s.L + s.R, u := 0#8, w := 0#8,
      F := 0#8, EDST := 3#2, LSA := 17#6, initMem := s.initMem || s.L + s.R &&& 16777215#32 &&& 3#32 == 0#32,
      ROAR := if s.L + s.R &&& 16777215#32 &&& 3#32 = 0#32 then 2500 ||| 2 * (s.MD &&& 9#4 == 0#4).toNat + 1 else 450,
      LS := lsPut s.LS (17#6) (s.L + s.R) } := by
  rw [w341]; simp

/-- Word 9c7. -/
theorem w9c7 : ros 0x9c7 = {
      lu := 0, mv := 0, zp := 768, zf := 8, zn := 0, tr := 3, ws := 6, sf := 2, iv := 0, al := 0, wm := 0, up := 2,
      md := 0, lb := 0, mb := 0, dg := 0, ul := 0, ur := 1, ce := 2, lx := 0, tc := 1, ry := 0, ad := 1, ab := 1,
      bb := 0, ss := 39 } := by
  decide +kernel

/-- `9c7 qg010-a6 E=2 0+0>M |U:0 V:0 W:E>WL,U>WR>0 |LS:FN,MD>LSA LS>R>LS |SS:E(23)->LSFN |A:1 B:0 Z:300 M(47)>>ROAR` -/
theorem x9c7 (e : Env) (ex : Bool) (s : S) :
    exec e (ros 0x9c7) ex s = .ok { s with
      R := s.LS (2#2 ++ s.MD), M := 0#32, alu := 0#32, aob := 0#32, u := 0#8, w := 32#8, EDST := 3#2, FN := 2#2,
      LSA := 2#2 ++ s.MD, ROAR := 768 ||| nib s.M 6 <<< 2 ||| 2 } := by
  rw [w9c7]; simp

/-- Word 9c5. -/
theorem w9c5 : ros 0x9c5 = {
      lu := 0, mv := 0, zp := 384, zf := 5, zn := 4, tr := 0, ws := 4, sf := 7, iv := 0, al := 0, wm := 15, up := 2,
      md := 0, lb := 0, mb := 0, dg := 0, ul := 1, ur := 0, ce := 6, lx := 0, tc := 1, ry := 0, ad := 1, ab := 0,
      bb := 1, ss := 0 } := by
  decide +kernel

/-- `9c5 qg010-e6 E=6 0+0>T |U:0 V:0 W:U>WL,E>WR>W>MD,F |LS:FN,J>LSA 7 |A:0 B:1 Z:194 ` -/
theorem x9c5 (e : Env) (ex : Bool) (s : S) :
    exec e (ros 0x9c5) ex s = .ok { s with
      alu := 0#32, aob := 0#32, u := 0#8, w := 6#8, F := 6#8, MD := 0#4, EDST := 3#2, LSA := s.FN ++ s.J,
      ROAR := 0x195 } := by
  rw [w9c5]; simp

/-- Word 322. -/
theorem w322 : ros 0x322 = {
      lu := 0, mv := 0, zp := 832, zf := 3, zn := 6, tr := 1, ws := 6, sf := 0, iv := 0, al := 30, wm := 0, up := 2,
      md := 0, lb := 0, mb := 0, dg := 0, ul := 1, ur := 1, ce := 2, lx := 0, tc := 1, ry := 0, ad := 1, ab := 5,
      bb := 0, ss := 16 } := by
  decide +kernel

/-- `322 qg300-l2 E=2 0+0>R AL:D |U:0 V:0 W:U>WL,U>WR>0 |LS:FN,MD>LSA R>LS |SS:S03.!E |A:S3 B:0 Z:34c B|(A=0)>B` -/
theorem x322 (e : Env) (ex : Bool) (s : S) :
    exec e (ros 0x322) ex s = .ok { s with
      R := s.SDR, alu := 0#32, aob := s.SDR, u := 0#8, w := 0#8, EDST := 3#2, LSA := s.FN ++ s.MD,
      St := { s.St with s2 := false }, ROAR := 844 ||| 2 * s.St.s3.toNat + (!s.St.s3).toNat,
      LS := lsPut s.LS (s.FN ++ s.MD) s.SDR } := by
  rw [w322]; simp

end Verif.Cpu50
