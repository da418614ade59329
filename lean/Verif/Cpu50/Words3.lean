import Verif.Cpu50.Words0

/-!
# Model 2050: words of the RX instructions

Written by a script from the model itself; each lemma is the effect of one word of `/repo/src/model2050/ros.txt`
on the processor, with the text of the word as the listing names its fields.
-/

namespace Verif.Cpu50

attribute [local simp] exec needsChan front condA condB combine abBits nextBase leftBus leftIn rightBus rightIn uBus vBus ceB moverL moverR adCin ivStep smif dgStep cinW adder adStep lateB alStep ssEarly trStep protect ssLate wsStep wmStep upStep finish Out.bind ceBit fpStats Nat.testBit_eq_decide_div_mod_eq mov_whole

/-- A store to the address in `SAR` passes the check of the protection key. -/
def Permit (s : S) : Prop := s.KEY = 0#4 ∨ (keyIx s < 256 ∧ s.KEY.setWidth 8 = s.MP (keyIx s))

/-- It does not. -/
def Denied (s : S) : Prop := s.KEY ≠ 0#4 ∧ keyIx s < 256 ∧ s.KEY.setWidth 8 ≠ s.MP (keyIx s)

/-- Word 105. -/
theorem w105 : ros 0x105 = {
      lu := 0, mv := 0, zp := 640, zf := 8, zn := 0, tr := 0, ws := 4, sf := 6, iv := 0, al := 0, wm := 0, up := 2,
      md := 0, lb := 0, mb := 0, dg := 0, ul := 1, ur := 1, ce := 0, lx := 0, tc := 1, ry := 0, ad := 1, ab := 0,
      bb := 0, ss := 0 } := by
  decide +kernel

/-- `105 qa111-l2 E=0 0+0>T |U:0 V:0 W:U>WL,U>WR>0 |LS:FN,J>LSA LS>L>LS |A:0 B:0 Z:280 M(47)>>ROAR` -/
theorem x105 (e : Env) (ex : Bool) (s : S) :
    exec e (ros 0x105) ex s = .ok { s with
      L := s.LS (s.FN ++ s.J), alu := 0#32, aob := 0#32, u := 0#8, w := 0#8, EDST := 3#2, LSA := s.FN ++ s.J,
      ROAR := 640 ||| nib s.M 6 <<< 2 } := by
  rw [w105]; simp

/-- Word 197. -/
theorem w197 : ros 0x197 = {
      lu := 0, mv := 0, zp := 320, zf := 2, zn := 4, tr := 0, ws := 3, sf := 6, iv := 7, al := 0, wm := 0, up := 2,
      md := 0, lb := 0, mb := 0, dg := 0, ul := 1, ur := 1, ce := 14, lx := 0, tc := 1, ry := 0, ad := 1, ab := 56,
      bb := 0, ss := 24 } := by
  decide +kernel

/-- `197 qt100-j7 E=e 0+0>T |U:0 V:0 W:U>WL,U>WR>0 |LS:WS,E>LSA LS>L>LS |IV:IA+0/2>A |SS:E>S47 |A:I-FETCH B:0 Z:148 ` -/
theorem x197 (e : Env) (ex : Bool) (s : S) :
    exec e (ros 0x197) ex s = .ok { s with
      L := s.LS 30#6, SAR := ifAddr s.REFETCH s.IA, alu := 0#32, aob := 0#32, u := 0#8, w := 0#8, EDST := 3#2,
      LSA := 30#6, St := { s.St with s4 := true, s5 := true, s6 := true, s7 := false },
      IVA := s.IVA || decide (e.memMax < ifAddr s.REFETCH s.IA),
      initMem := s.initMem || !decide (e.memMax < ifAddr s.REFETCH s.IA),
      ROAR := 328 ||| 2 * (ex || s.IA &&& 2#32 == 0#32).toNat + (ex || s.IA &&& 2#32 != 0#32 && s.REFETCH).toNat } := by
  rw [w197]; simp

/-- Word 287. -/
theorem w287 : ros 0x287 = {
      lu := 0, mv := 0, zp := 320, zf := 2, zn := 4, tr := 0, ws := 3, sf := 6, iv := 7, al := 0, wm := 0, up := 2,
      md := 0, lb := 0, mb := 0, dg := 0, ul := 1, ur := 1, ce := 14, lx := 2, tc := 1, ry := 2, ad := 1, ab := 56,
      bb := 0, ss := 41 } := by
  decide +kernel

/-- `287 qb500-e5 E=e M+SGN>T |U:0 V:0 W:U>WL,U>WR>0 |LS:WS,E>LSA LS>L>LS |IV:IA+0/2>A |SS:SETCRALG |A:I-FETCH B:0 Z:148 ` -/
theorem x287 (e : Env) (ex : Bool) (s : S) :
    exec e (ros 0x287) ex s = .ok { s with
      L := s.LS 30#6, SAR := ifAddr s.REFETCH s.IA, alu := 2147483648#32 + s.M, aob := 2147483648#32 + s.M, u := 0#8,
      w := 0#8, EDST := 3#2,
      CC := if 2147483648#32 + s.M = 0#32 then 0#2 else if BitVec.msb (2147483648#32 + s.M) = true then 1#2 else 2#2,
      LSA := 30#6, IVA := s.IVA || decide (e.memMax < ifAddr s.REFETCH s.IA),
      initMem := s.initMem || !decide (e.memMax < ifAddr s.REFETCH s.IA),
      ROAR := 328 ||| 2 * (ex || s.IA &&& 2#32 == 0#32).toNat + (ex || s.IA &&& 2#32 != 0#32 && s.REFETCH).toNat } := by
  rw [w287]; simp

/-- Word 114. -/
theorem w114 : ros 0x114 = {
      lu := 0, mv := 0, zp := 256, zf := 8, zn := 4, tr := 1, ws := 4, sf := 6, iv := 0, al := 0, wm := 0, up := 2,
      md := 0, lb := 0, mb := 0, dg := 0, ul := 1, ur := 1, ce := 0, lx := 1, tc := 1, ry := 3, ad := 1, ab := 1,
      bb := 1, ss := 0 } := by
  decide +kernel

/-- `114 qa111-a5 E=0 M23+L>R |U:0 V:0 W:U>WL,U>WR>0 |LS:FN,J>LSA LS>L>LS |A:1 B:1 Z:120 ` -/
theorem x114 (e : Env) (ex : Bool) (s : S) :
    exec e (ros 0x114) ex s = .ok { s with
      R := s.L + (s.M &&& 65535#32), L := s.LS (s.FN ++ s.J), alu := s.L + (s.M &&& 65535#32),
      aob := s.L + (s.M &&& 65535#32), u := 0#8, w := 0#8, EDST := 3#2, LSA := s.FN ++ s.J, ROAR := 0x123 } := by
  rw [w114]; simp

/-- Word 115. -/
theorem w115 : ros 0x115 = {
      lu := 0, mv := 0, zp := 256, zf := 8, zn := 4, tr := 1, ws := 4, sf := 6, iv := 0, al := 0, wm := 0, up := 2,
      md := 0, lb := 0, mb := 0, dg := 0, ul := 1, ur := 1, ce := 0, lx := 0, tc := 1, ry := 3, ad := 1, ab := 1,
      bb := 1, ss := 0 } := by
  decide +kernel

/-- `115 qa111-e5 E=0 M23+0>R |U:0 V:0 W:U>WL,U>WR>0 |LS:FN,J>LSA LS>L>LS |A:1 B:1 Z:120 ` -/
theorem x115 (e : Env) (ex : Bool) (s : S) :
    exec e (ros 0x115) ex s = .ok { s with
      R := s.M &&& 65535#32, L := s.LS (s.FN ++ s.J), alu := s.M &&& 65535#32, aob := s.M &&& 65535#32, u := 0#8,
      w := 0#8, EDST := 3#2, LSA := s.FN ++ s.J, ROAR := 0x123 } := by
  rw [w115]; simp

/-- Word 116. -/
theorem w116 : ros 0x116 = {
      lu := 0, mv := 0, zp := 640, zf := 8, zn := 0, tr := 10, ws := 6, sf := 6, iv := 0, al := 0, wm := 0, up := 2,
      md := 0, lb := 0, mb := 0, dg := 0, ul := 1, ur := 1, ce := 0, lx := 1, tc := 1, ry := 3, ad := 1, ab := 0,
      bb := 1, ss := 0 } := by
  decide +kernel

/-- `116 qa111-j5 E=0 M23+L>R,AW |U:0 V:0 W:U>WL,U>WR>0 |LS:FN,MD>LSA LS>L>LS |A:0 B:1 Z:280 M(47)>>ROAR` -/
theorem x116 (e : Env) (ex : Bool) (s : S) :
    exec e (ros 0x116) ex s = .ok { s with
      R := s.L + (s.M &&& 65535#32), L := s.LS (s.FN ++ s.MD), SAR := s.L + (s.M &&& 65535#32) &&& 16777215#32,
      alu := s.L + (s.M &&& 65535#32), aob := s.L + (s.M &&& 65535#32), u := 0#8, w := 0#8, EDST := 3#2,
      LSA := s.FN ++ s.MD, initMem := s.initMem || s.L + (s.M &&& 65535#32) &&& 16777215#32 &&& 3#32 == 0#32,
      ROAR := if s.L + (s.M &&& 65535#32) &&& 16777215#32 &&& 3#32 = 0#32 then 640 ||| nib s.M 6 <<< 2 ||| 1 else 450 } := by
  rw [w116]; simp

/-- Word 117. -/
theorem w117 : ros 0x117 = {
      lu := 0, mv := 0, zp := 640, zf := 8, zn := 0, tr := 10, ws := 6, sf := 6, iv := 0, al := 0, wm := 0, up := 2,
      md := 0, lb := 0, mb := 0, dg := 0, ul := 1, ur := 1, ce := 0, lx := 0, tc := 1, ry := 3, ad := 1, ab := 0,
      bb := 1, ss := 0 } := by
  decide +kernel

/-- `117 qa111-n5 E=0 M23+0>R,AW |U:0 V:0 W:U>WL,U>WR>0 |LS:FN,MD>LSA LS>L>LS |A:0 B:1 Z:280 M(47)>>ROAR` -/
theorem x117 (e : Env) (ex : Bool) (s : S) :
    exec e (ros 0x117) ex s = .ok { s with
      R := s.M &&& 65535#32, L := s.LS (s.FN ++ s.MD), SAR := s.M &&& 65535#32 &&& 16777215#32,
      alu := s.M &&& 65535#32, aob := s.M &&& 65535#32, u := 0#8, w := 0#8, EDST := 3#2, LSA := s.FN ++ s.MD,
      initMem := s.initMem || s.M &&& 65535#32 &&& 16777215#32 &&& 3#32 == 0#32,
      ROAR := if s.M &&& 65535#32 &&& 16777215#32 &&& 3#32 = 0#32 then 640 ||| nib s.M 6 <<< 2 ||| 1 else 450 } := by
  rw [w117]; simp

/-- Word 123. -/
theorem w123 : ros 0x123 = {
      lu := 0, mv := 0, zp := 640, zf := 8, zn := 0, tr := 10, ws := 6, sf := 6, iv := 0, al := 0, wm := 0, up := 2,
      md := 0, lb := 0, mb := 0, dg := 0, ul := 1, ur := 1, ce := 0, lx := 1, tc := 1, ry := 1, ad := 1, ab := 0,
      bb := 1, ss := 0 } := by
  decide +kernel

/-- `123 qa111-c7 E=0 R+L>R,AW |U:0 V:0 W:U>WL,U>WR>0 |LS:FN,MD>LSA LS>L>LS |A:0 B:1 Z:280 M(47)>>ROAR` -/
theorem x123 (e : Env) (ex : Bool) (s : S) :
    exec e (ros 0x123) ex s = .ok { s with
      R := s.L + s.R, L := s.LS (s.FN ++ s.MD), SAR := s.L + s.R &&& 16777215#32, alu := s.L + s.R, aob := s.L + s.R,
      u := 0#8, w := 0#8, EDST := 3#2, LSA := s.FN ++ s.MD,
      initMem := s.initMem || s.L + s.R &&& 16777215#32 &&& 3#32 == 0#32,
      ROAR := if s.L + s.R &&& 16777215#32 &&& 3#32 = 0#32 then 640 ||| nib s.M 6 <<< 2 ||| 1 else 450 } := by
  rw [w123]; simp

/-- Word 2a1. -/
theorem w2a1 : ros 0x2a1 = {
      lu := 0, mv := 0, zp := 384, zf := 5, zn := 4, tr := 7, ws := 6, sf := 4, iv := 0, al := 30, wm := 0, up := 2,
      md := 0, lb := 0, mb := 0, dg := 0, ul := 1, ur := 1, ce := 0, lx := 0, tc := 1, ry := 0, ad := 1, ab := 1,
      bb := 1, ss := 0 } := by
  decide +kernel

/-- `2a1 qf100-a1 E=0 0+0>L AL:D |U:0 V:0 W:U>WL,U>WR>0 |LS:FN,MD>LSA L>LS |A:1 B:1 Z:194 ` -/
theorem x2a1 (e : Env) (ex : Bool) (s : S) :
    exec e (ros 0x2a1) ex s = .ok { s with
      L := s.SDR, alu := 0#32, aob := s.SDR, u := 0#8, w := 0#8, EDST := 3#2, LSA := s.FN ++ s.MD, ROAR := 0x197,
      LS := lsPut s.LS (s.FN ++ s.MD) s.SDR } := by
  rw [w2a1]; simp

/-- Word 291. -/
theorem w291 : ros 0x291 = {
      lu := 0, mv := 0, zp := 512, zf := 14, zn := 4, tr := 3, ws := 4, sf := 7, iv := 0, al := 30, wm := 0, up := 2,
      md := 0, lb := 0, mb := 1, dg := 0, ul := 1, ur := 1, ce := 2, lx := 0, tc := 1, ry := 0, ad := 1, ab := 0,
      bb := 0, ss := 38 } := by
  decide +kernel

/-- `291 qb400-l1 E=2 0+0>M AL:D |U:0 V:0 W:U>WL,U>WR>0 |LS:FN,J>LSA 7 |CNTmb- |SS:E(13)>WFN |A:0 B:0 Z:238 ` -/
theorem x291 (e : Env) (ex : Bool) (s : S) :
    exec e (ros 0x291) ex s = .ok { s with
      M := s.SDR, alu := 0#32, aob := s.SDR, u := 0#8, w := 0#8, MB := s.MB - 1#2, EDST := 3#2, mvf := 2#3,
      LSA := s.FN ++ s.J, ROAR := 0x238 } := by
  rw [w291]; simp

/-- Word 299. -/
theorem w299 : ros 0x299 = {
      lu := 0, mv := 0, zp := 512, zf := 14, zn := 4, tr := 3, ws := 4, sf := 7, iv := 0, al := 30, wm := 0, up := 2,
      md := 0, lb := 0, mb := 1, dg := 0, ul := 1, ur := 1, ce := 1, lx := 0, tc := 1, ry := 0, ad := 1, ab := 0,
      bb := 0, ss := 38 } := by
  decide +kernel

/-- `299 qb400-n1 E=1 0+0>M AL:D |U:0 V:0 W:U>WL,U>WR>0 |LS:FN,J>LSA 7 |CNTmb- |SS:E(13)>WFN |A:0 B:0 Z:238 ` -/
theorem x299 (e : Env) (ex : Bool) (s : S) :
    exec e (ros 0x299) ex s = .ok { s with
      M := s.SDR, alu := 0#32, aob := s.SDR, u := 0#8, w := 0#8, MB := s.MB - 1#2, EDST := 3#2, mvf := 1#3,
      LSA := s.FN ++ s.J, ROAR := 0x238 } := by
  rw [w299]; simp

/-- Word 29d. -/
theorem w29d : ros 0x29d = {
      lu := 0, mv := 0, zp := 512, zf := 14, zn := 4, tr := 3, ws := 4, sf := 7, iv := 0, al := 30, wm := 0, up := 2,
      md := 0, lb := 0, mb := 1, dg := 0, ul := 1, ur := 1, ce := 3, lx := 0, tc := 1, ry := 0, ad := 1, ab := 0,
      bb := 0, ss := 38 } := by
  decide +kernel

/-- `29d qb400-q1 E=3 0+0>M AL:D |U:0 V:0 W:U>WL,U>WR>0 |LS:FN,J>LSA 7 |CNTmb- |SS:E(13)>WFN |A:0 B:0 Z:238 ` -/
theorem x29d (e : Env) (ex : Bool) (s : S) :
    exec e (ros 0x29d) ex s = .ok { s with
      M := s.SDR, alu := 0#32, aob := s.SDR, u := 0#8, w := 0#8, MB := s.MB - 1#2, EDST := 3#2, mvf := 3#3,
      LSA := s.FN ++ s.J, ROAR := 0x238 } := by
  rw [w29d]; simp

/-- Word 295. -/
theorem w295 : ros 0x295 = {
      lu := 0, mv := 0, zp := 576, zf := 1, zn := 4, tr := 7, ws := 6, sf := 2, iv := 0, al := 30, wm := 0, up := 2,
      md := 0, lb := 0, mb := 0, dg := 0, ul := 1, ur := 1, ce := 0, lx := 0, tc := 1, ry := 0, ad := 1, ab := 1,
      bb := 1, ss := 0 } := by
  decide +kernel

/-- `295 qb500-s1 E=0 0+0>L AL:D |U:0 V:0 W:U>WL,U>WR>0 |LS:FN,MD>LSA LS>R>LS |A:1 B:1 Z:244 ` -/
theorem x295 (e : Env) (ex : Bool) (s : S) :
    exec e (ros 0x295) ex s = .ok { s with
      R := s.LS (s.FN ++ s.MD), L := s.SDR, alu := 0#32, aob := s.SDR, u := 0#8, w := 0#8, EDST := 3#2,
      LSA := s.FN ++ s.MD, ROAR := 0x247 } := by
  rw [w295]; simp

/-- Word 247. -/
theorem w247 : ros 0x247 = {
      lu := 0, mv := 0, zp := 384, zf := 5, zn := 4, tr := 0, ws := 4, sf := 7, iv := 0, al := 0, wm := 0, up := 2,
      md := 0, lb := 0, mb := 0, dg := 2, ul := 1, ur := 1, ce := 0, lx := 1, tc := 0, ry := 1, ad := 4, ab := 1,
      bb := 1, ss := 42 } := by
  decide +kernel

/-- `247 qb500-s3 E=0 R-L>T AD:BC0 |U:0 V:0 W:U>WL,U>WR>0 |LS:FN,J>LSA 7 |DG:HOT1>ADDR |SS:SETCRLOG |A:1 B:1 Z:194 ` -/
theorem x247 (e : Env) (ex : Bool) (s : S) :
    exec e (ros 0x247) ex s = .ok { s with
      alu := ~~~(s.L &&& bsMask s.BS) + s.R + 1#32, aob := ~~~(s.L &&& bsMask s.BS) + s.R + 1#32, u := 0#8, w := 0#8,
      EDST := 3#2,
      CC := if ~~~(s.L &&& bsMask s.BS) + s.R + 1#32 &&& bsMask s.BS = 0#32 then 0#2 else if BitVec.msb (carriesOf (~~~(s.L &&& bsMask s.BS)) s.R (~~~(s.L &&& bsMask s.BS) + s.R + 1#32)) = true then 2#2 else 1#2,
      LSA := s.FN ++ s.J,
      CAR := BitVec.msb (carriesOf (~~~(s.L &&& bsMask s.BS)) s.R (~~~(s.L &&& bsMask s.BS) + s.R + 1#32)),
      ROAR := 0x197 } := by
  rw [w247]; simp

/-- Word 2a5. -/
theorem w2a5 : ros 0x2a5 = {
      lu := 0, mv := 0, zp := 576, zf := 1, zn := 4, tr := 7, ws := 6, sf := 2, iv := 0, al := 30, wm := 0, up := 1,
      md := 0, lb := 0, mb := 1, dg := 0, ul := 1, ur := 1, ce := 14, lx := 0, tc := 1, ry := 0, ad := 1, ab := 0,
      bb := 1, ss := 24 } := by
  decide +kernel

/-- `2a5 qb500-e1 E=e 0+0>L AL:D |U:0 V:0 W:U>WL,U>WR>0 |LS:FN,MD>LSA LS>R>LS |CNTmb=3 |SS:E>S47 |A:0 B:1 Z:244 ` -/
theorem x2a5 (e : Env) (ex : Bool) (s : S) :
    exec e (ros 0x2a5) ex s = .ok { s with
      R := s.LS (s.FN ++ s.MD), L := s.SDR, alu := 0#32, aob := s.SDR, u := 0#8, w := 0#8, MB := 3#2, EDST := 3#2,
      LSA := s.FN ++ s.MD, St := { s.St with s4 := true, s5 := true, s6 := true, s7 := false }, ROAR := 0x245 } := by
  rw [w2a5]; simp

/-- Word 2a9. -/
theorem w2a9 : ros 0x2a9 = {
      lu := 1, mv := 0, zp := 512, zf := 8, zn := 4, tr := 7, ws := 6, sf := 2, iv := 0, al := 30, wm := 6, up := 2,
      md := 0, lb := 0, mb := 0, dg := 0, ul := 1, ur := 1, ce := 2, lx := 0, tc := 1, ry := 0, ad := 1, ab := 0,
      bb := 0, ss := 38 } := by
  decide +kernel

/-- `2a9 qb730-j1 E=2 0+0>L AL:D |U:MD,F>U V:0 W:U>WL,U>WR>WL>J |LS:FN,MD>LSA LS>R>LS |SS:E(13)>WFN |A:0 B:0 Z:220 ` -/
theorem x2a9 (e : Env) (ex : Bool) (s : S) :
    exec e (ros 0x2a9) ex s = .ok { s with
      R := s.LS (s.FN ++ s.MD), L := s.SDR, alu := 0#32, aob := s.SDR, u := BitVec.setWidth 8 s.MD <<< 4 ||| s.F,
      w := BitVec.setWidth 8 s.MD <<< 4 ||| s.F, J := BitVec.setWidth 4 ((BitVec.setWidth 8 s.MD <<< 4 ||| s.F) >>> 4),
      EDST := 3#2, mvf := 2#3, LSA := s.FN ++ s.MD, ROAR := 0x220 } := by
  rw [w2a9]; simp

/-- Word 2ad. -/
theorem w2ad : ros 0x2ad = {
      lu := 1, mv := 0, zp := 512, zf := 8, zn := 4, tr := 7, ws := 6, sf := 2, iv := 0, al := 30, wm := 6, up := 2,
      md := 0, lb := 0, mb := 0, dg := 0, ul := 1, ur := 1, ce := 2, lx := 0, tc := 1, ry := 0, ad := 1, ab := 0,
      bb := 1, ss := 38 } := by
  decide +kernel

/-- `2ad qb730-n1 E=2 0+0>L AL:D |U:MD,F>U V:0 W:U>WL,U>WR>WL>J |LS:FN,MD>LSA LS>R>LS |SS:E(13)>WFN |A:0 B:1 Z:220 ` -/
theorem x2ad (e : Env) (ex : Bool) (s : S) :
    exec e (ros 0x2ad) ex s = .ok { s with
      R := s.LS (s.FN ++ s.MD), L := s.SDR, alu := 0#32, aob := s.SDR, u := BitVec.setWidth 8 s.MD <<< 4 ||| s.F,
      w := BitVec.setWidth 8 s.MD <<< 4 ||| s.F, J := BitVec.setWidth 4 ((BitVec.setWidth 8 s.MD <<< 4 ||| s.F) >>> 4),
      EDST := 3#2, mvf := 2#3, LSA := s.FN ++ s.MD, ROAR := 0x221 } := by
  rw [w2ad]; simp

/-- Word 2b9. -/
theorem w2b9 : ros 0x2b9 = {
      lu := 0, mv := 0, zp := 576, zf := 2, zn := 4, tr := 7, ws := 6, sf := 2, iv := 0, al := 30, wm := 0, up := 2,
      md := 0, lb := 0, mb := 0, dg := 0, ul := 1, ur := 1, ce := 0, lx := 0, tc := 1, ry := 0, ad := 1, ab := 0,
      bb := 1, ss := 0 } := by
  decide +kernel

/-- `2b9 qr750-a1 E=0 0+0>L AL:D |U:0 V:0 W:U>WL,U>WR>0 |LS:FN,MD>LSA LS>R>LS |A:0 B:1 Z:248 ` -/
theorem x2b9 (e : Env) (ex : Bool) (s : S) :
    exec e (ros 0x2b9) ex s = .ok { s with
      R := s.LS (s.FN ++ s.MD), L := s.SDR, alu := 0#32, aob := s.SDR, u := 0#8, w := 0#8, EDST := 3#2,
      LSA := s.FN ++ s.MD, ROAR := 0x249 } := by
  rw [w2b9]; simp

/-- Word 2bd. -/
theorem w2bd : ros 0x2bd = {
      lu := 0, mv := 0, zp := 576, zf := 2, zn := 4, tr := 7, ws := 6, sf := 2, iv := 0, al := 30, wm := 0, up := 2,
      md := 0, lb := 0, mb := 0, dg := 0, ul := 1, ur := 1, ce := 0, lx := 0, tc := 1, ry := 0, ad := 1, ab := 1,
      bb := 0, ss := 0 } := by
  decide +kernel

/-- `2bd qb750-q1 E=0 0+0>L AL:D |U:0 V:0 W:U>WL,U>WR>0 |LS:FN,MD>LSA LS>R>LS |A:1 B:0 Z:248 ` -/
theorem x2bd (e : Env) (ex : Bool) (s : S) :
    exec e (ros 0x2bd) ex s = .ok { s with
      R := s.LS (s.FN ++ s.MD), L := s.SDR, alu := 0#32, aob := s.SDR, u := 0#8, w := 0#8, EDST := 3#2,
      LSA := s.FN ++ s.MD, ROAR := 0x24a } := by
  rw [w2bd]; simp

/-- Word 281. -/
theorem w281 : ros 0x281 = {
      lu := 0, mv := 0, zp := 384, zf := 5, zn := 4, tr := 4, ws := 4, sf := 7, iv := 0, al := 0, wm := 0, up := 2,
      md := 0, lb := 0, mb := 0, dg := 0, ul := 1, ur := 1, ce := 0, lx := 1, tc := 1, ry := 0, ad := 1, ab := 1,
      bb := 1, ss := 0 } := by
  decide +kernel

/-- `281 qf100-j1 E=0 0+L>D |U:0 V:0 W:U>WL,U>WR>0 |LS:FN,J>LSA 7 |A:1 B:1 Z:194 ` -/
theorem x281_k (e : Env) (ex : Bool) (s : S) (hk : Permit s) :
    exec e (ros 0x281) ex s = .ok { s with
      SDR := s.L, alu := s.L, aob := s.L, u := 0#8, w := 0#8, EDST := 3#2, LSA := s.FN ++ s.J,
      updD := true, ROAR := 0x197 } := by
  rw [w281]
  rcases hk with hk | ⟨h1, h2⟩
  · simp [hk]
  · simp only [keyIx, BitVec.toNat_ushiftRight] at h1 h2
    by_cases hk : s.KEY = 0#4 <;> simp [keyIx, hk, h1, h2]

theorem x281_p (e : Env) (ex : Bool) (s : S) (hk : Denied s) :
    exec e (ros 0x281) ex s = .ok { s with
      alu := s.L, aob := s.L, u := 0#8, w := 0#8, EDST := 3#2, LSA := s.FN ++ s.J,
      ROAR := 0x142 } := by
  rw [w281]
  obtain ⟨h0, h1, h2⟩ := hk
  simp only [keyIx, BitVec.toNat_ushiftRight] at h1 h2
  simp [keyIx, h0, h1, h2]

/-- Word 110. -/
theorem w110 : ros 0x110 = {
      lu := 0, mv := 0, zp := 256, zf := 8, zn := 4, tr := 1, ws := 4, sf := 6, iv := 0, al := 0, wm := 0, up := 2,
      md := 0, lb := 0, mb := 0, dg := 0, ul := 1, ur := 1, ce := 0, lx := 1, tc := 1, ry := 3, ad := 1, ab := 1,
      bb := 0, ss := 0 } := by
  decide +kernel

/-- `110 qa110-a5 E=0 M23+L>R |U:0 V:0 W:U>WL,U>WR>0 |LS:FN,J>LSA LS>L>LS |A:1 B:0 Z:120 ` -/
theorem x110 (e : Env) (ex : Bool) (s : S) :
    exec e (ros 0x110) ex s = .ok { s with
      R := s.L + (s.M &&& 65535#32), L := s.LS (s.FN ++ s.J), alu := s.L + (s.M &&& 65535#32),
      aob := s.L + (s.M &&& 65535#32), u := 0#8, w := 0#8, EDST := 3#2, LSA := s.FN ++ s.J, ROAR := 0x122 } := by
  rw [w110]; simp

/-- Word 111. -/
theorem w111 : ros 0x111 = {
      lu := 0, mv := 0, zp := 256, zf := 8, zn := 4, tr := 1, ws := 4, sf := 6, iv := 0, al := 0, wm := 0, up := 2,
      md := 0, lb := 0, mb := 0, dg := 0, ul := 1, ur := 1, ce := 0, lx := 0, tc := 1, ry := 3, ad := 1, ab := 1,
      bb := 0, ss := 0 } := by
  decide +kernel

/-- `111 qa110-e5 E=0 M23+0>R |U:0 V:0 W:U>WL,U>WR>0 |LS:FN,J>LSA LS>L>LS |A:1 B:0 Z:120 ` -/
theorem x111 (e : Env) (ex : Bool) (s : S) :
    exec e (ros 0x111) ex s = .ok { s with
      R := s.M &&& 65535#32, L := s.LS (s.FN ++ s.J), alu := s.M &&& 65535#32, aob := s.M &&& 65535#32, u := 0#8,
      w := 0#8, EDST := 3#2, LSA := s.FN ++ s.J, ROAR := 0x122 } := by
  rw [w111]; simp

/-- Word 112. -/
theorem w112 : ros 0x112 = {
      lu := 0, mv := 0, zp := 1792, zf := 8, zn := 0, tr := 7, ws := 6, sf := 2, iv := 0, al := 6, wm := 2, up := 1,
      md := 0, lb := 1, mb := 0, dg := 0, ul := 1, ur := 1, ce := 0, lx := 1, tc := 1, ry := 3, ad := 1, ab := 0,
      bb := 0, ss := 8 } := by
  decide +kernel

/-- `112 qa110-j5 E=0 M23+L>L AL:IA>H |U:0 V:0 W:U>WL,U>WR>W67>MB |LS:FN,MD>LSA LS>R>LS |CNTlb=3 |SS:E->S03 |A:0 B:0 Z:700 M(47)>>ROAR` -/
theorem x112 (e : Env) (ex : Bool) (s : S) :
    exec e (ros 0x112) ex s = .ok { s with
      R := s.LS (s.FN ++ s.MD), L := s.L + (s.M &&& 65535#32), H := s.H &&& 4278190080#32 ||| s.IA &&& 16777215#32,
      alu := s.L + (s.M &&& 65535#32), aob := s.L + (s.M &&& 65535#32), u := 0#8, w := 0#8, MB := 0#2, LB := 3#2,
      EDST := 3#2, LSA := s.FN ++ s.MD, St := { s.St with s0 := false, s1 := false, s2 := false, s3 := false },
      ROAR := 1792 ||| nib s.M 6 <<< 2 } := by
  rw [w112]; simp

/-- Word 113. -/
theorem w113 : ros 0x113 = {
      lu := 0, mv := 0, zp := 1792, zf := 8, zn := 0, tr := 7, ws := 6, sf := 2, iv := 0, al := 6, wm := 2, up := 1,
      md := 0, lb := 1, mb := 0, dg := 0, ul := 1, ur := 1, ce := 0, lx := 0, tc := 1, ry := 3, ad := 1, ab := 0,
      bb := 0, ss := 8 } := by
  decide +kernel

/-- `113 qa110-n5 E=0 M23+0>L AL:IA>H |U:0 V:0 W:U>WL,U>WR>W67>MB |LS:FN,MD>LSA LS>R>LS |CNTlb=3 |SS:E->S03 |A:0 B:0 Z:700 M(47)>>ROAR` -/
theorem x113 (e : Env) (ex : Bool) (s : S) :
    exec e (ros 0x113) ex s = .ok { s with
      R := s.LS (s.FN ++ s.MD), L := s.M &&& 65535#32, H := s.H &&& 4278190080#32 ||| s.IA &&& 16777215#32,
      alu := s.M &&& 65535#32, aob := s.M &&& 65535#32, u := 0#8, w := 0#8, MB := 0#2, LB := 3#2, EDST := 3#2,
      LSA := s.FN ++ s.MD, St := { s.St with s0 := false, s1 := false, s2 := false, s3 := false },
      ROAR := 1792 ||| nib s.M 6 <<< 2 } := by
  rw [w113]; simp

/-- Word 122. -/
theorem w122 : ros 0x122 = {
      lu := 0, mv := 0, zp := 1792, zf := 8, zn := 0, tr := 7, ws := 6, sf := 2, iv := 0, al := 6, wm := 2, up := 1,
      md := 0, lb := 1, mb := 0, dg := 0, ul := 1, ur := 1, ce := 0, lx := 1, tc := 1, ry := 1, ad := 1, ab := 0,
      bb := 0, ss := 8 } := by
  decide +kernel

/-- `122 qa110-c7 E=0 R+L>L AL:IA>H |U:0 V:0 W:U>WL,U>WR>W67>MB |LS:FN,MD>LSA LS>R>LS |CNTlb=3 |SS:E->S03 |A:0 B:0 Z:700 M(47)>>ROAR` -/
theorem x122 (e : Env) (ex : Bool) (s : S) :
    exec e (ros 0x122) ex s = .ok { s with
      R := s.LS (s.FN ++ s.MD), L := s.L + s.R, H := s.H &&& 4278190080#32 ||| s.IA &&& 16777215#32, alu := s.L + s.R,
      aob := s.L + s.R, u := 0#8, w := 0#8, MB := 0#2, LB := 3#2, EDST := 3#2, LSA := s.FN ++ s.MD,
      St := { s.St with s0 := false, s1 := false, s2 := false, s3 := false }, ROAR := 1792 ||| nib s.M 6 <<< 2 } := by
  rw [w122]; simp

/-- Word 704. -/
theorem w704 : ros 0x704 = {
      lu := 0, mv := 0, zp := 320, zf := 1, zn := 1, tr := 5, ws := 6, sf := 4, iv := 7, al := 0, wm := 0, up := 2,
      md := 0, lb := 0, mb := 0, dg := 0, ul := 1, ur := 1, ce := 0, lx := 0, tc := 1, ry := 0, ad := 1, ab := 56,
      bb := 0, ss := 0 } := by
  decide +kernel

/-- `704 qe100-a1 E=0 0+0>L0 |U:0 V:0 W:U>WL,U>WR>0 |LS:FN,MD>LSA L>LS |IV:IA+0/2>A |A:I-FETCH B:0 Z:144 SMIF` -/
theorem x704 (e : Env) (ex : Bool) (s : S) :
    exec e (ros 0x704) ex s = .ok { s with
      L := s.L &&& 16777215#32,
      SAR := if s.REFETCH = false ∧ ¬s.IA &&& 2#32 = 0#32 then s.SAR else ifAddr s.REFETCH s.IA, alu := 0#32,
      aob := 0#32, u := 0#8, w := 0#8, EDST := 3#2, LSA := s.FN ++ s.MD,
      IVA := s.IVA || (s.REFETCH || !s.IA &&& 2#32 != 0#32) && decide (e.memMax < ifAddr s.REFETCH s.IA),
      initMem := s.initMem || (s.REFETCH || !s.IA &&& 2#32 != 0#32) && !decide (e.memMax < ifAddr s.REFETCH s.IA),
      ROAR := 324 ||| 2 * (ex || s.IA &&& 2#32 == 0#32).toNat + (ex || s.IA &&& 2#32 != 0#32 && s.REFETCH).toNat,
      LS := lsPut s.LS (s.FN ++ s.MD) (s.L &&& 16777215#32) } := by
  rw [w704]; simp

/-- Word 708. -/
theorem w708 : ros 0x708 = {
      lu := 7, mv := 0, zp := 1856, zf := 1, zn := 4, tr := 15, ws := 4, sf := 7, iv := 0, al := 0, wm := 2, up := 2,
      md := 0, lb := 0, mb := 0, dg := 0, ul := 1, ur := 1, ce := 0, lx := 1, tc := 1, ry := 0, ad := 1, ab := 1,
      bb := 0, ss := 19 } := by
  decide +kernel

/-- `708 qe100-g1 E=0 0+L>A |U:LLB>U V:0 W:U>WL,U>WR>W67>MB |LS:FN,J>LSA 7 |SS:E->BS |A:1 B:0 Z:744 ` -/
theorem x708 (e : Env) (ex : Bool) (s : S) :
    exec e (ros 0x708) ex s = .ok { s with
      SAR := s.L &&& 16777215#32, alu := s.L, aob := s.L, u := byteOf s.L s.LB, w := byteOf s.L s.LB, BS := 0#4,
      MB := BitVec.setWidth 2 (byteOf s.L s.LB), EDST := 3#2, LSA := s.FN ++ s.J, initMem := true, ROAR := 0x746 } := by
  rw [w708]; simp

/-- Word 746. -/
theorem w746 : ros 0x746 = {
      lu := 2, mv := 0, zp := 2304, zf := 8, zn := 4, tr := 0, ws := 4, sf := 7, iv := 0, al := 0, wm := 1, up := 2,
      md := 0, lb := 0, mb := 0, dg := 0, ul := 1, ur := 1, ce := 0, lx := 0, tc := 1, ry := 0, ad := 1, ab := 0,
      bb := 0, ss := 20 } := by
  decide +kernel

/-- `746 qe100-g2 E=0 0+0>T |U:R3>U V:0 W:U>WL,U>WR>W>MMB |LS:FN,J>LSA 7 |SS:1->BS*MB |A:0 B:0 Z:920 ` -/
theorem x746 (e : Env) (ex : Bool) (s : S) :
    exec e (ros 0x746) ex s = .ok { s with
      M := putByte s.M s.MB (BitVec.setWidth 8 s.R), alu := 0#32, aob := 0#32, u := BitVec.setWidth 8 s.R,
      w := BitVec.setWidth 8 s.R, BS := s.BS ||| 8#4 >>> s.MB.toNat, EDST := 3#2, LSA := s.FN ++ s.J, ROAR := 0x920 } := by
  rw [w746]; simp

/-- Word 920. -/
theorem w920 : ros 0x920 = {
      lu := 0, mv := 0, zp := 384, zf := 5, zn := 4, tr := 29, ws := 4, sf := 7, iv := 0, al := 0, wm := 0, up := 2,
      md := 0, lb := 0, mb := 0, dg := 0, ul := 1, ur := 1, ce := 0, lx := 0, tc := 1, ry := 2, ad := 1, ab := 1,
      bb := 1, ss := 0 } := by
  decide +kernel

/-- `920 qk222-q3 E=0 M+0>D*BS |U:0 V:0 W:U>WL,U>WR>0 |LS:FN,J>LSA 7 |A:1 B:1 Z:194 ` -/
theorem x920_k (e : Env) (ex : Bool) (s : S) (hk : Permit s) :
    exec e (ros 0x920) ex s = .ok { s with
      SDR := s.SDR &&& ~~~bsMask s.BS ||| s.M &&& bsMask s.BS, alu := s.M, aob := s.M, u := 0#8, w := 0#8,
      EDST := 3#2, LSA := s.FN ++ s.J, updD := true, ROAR := 0x197 } := by
  rw [w920]
  rcases hk with hk | ⟨h1, h2⟩
  · simp [hk]
  · simp only [keyIx, BitVec.toNat_ushiftRight] at h1 h2
    by_cases hk : s.KEY = 0#4 <;> simp [keyIx, hk, h1, h2]

theorem x920_p (e : Env) (ex : Bool) (s : S) (hk : Denied s) :
    exec e (ros 0x920) ex s = .ok { s with
      alu := s.M, aob := s.M, u := 0#8, w := 0#8,
      EDST := 3#2, LSA := s.FN ++ s.J, ROAR := 0x142 } := by
  rw [w920]
  obtain ⟨h0, h1, h2⟩ := hk
  simp only [keyIx, BitVec.toNat_ushiftRight] at h1 h2
  simp [keyIx, h0, h1, h2]

/-- Word 70c. -/
theorem w70c : ros 0x70c = {
      lu := 0, mv := 0, zp := 1792, zf := 9, zn := 4, tr := 6, ws := 6, sf := 6, iv := 0, al := 0, wm := 0, up := 1,
      md := 0, lb := 0, mb := 1, dg := 0, ul := 1, ur := 1, ce := 0, lx := 1, tc := 1, ry := 0, ad := 1, ab := 0,
      bb := 1, ss := 0 } := by
  decide +kernel

/-- `70c qe100-n1 E=0 0+L>R,A |U:0 V:0 W:U>WL,U>WR>0 |LS:FN,MD>LSA LS>L>LS |CNTmb=3 |A:0 B:1 Z:724 ` -/
theorem x70c (e : Env) (ex : Bool) (s : S) :
    exec e (ros 0x70c) ex s = .ok { s with
      R := s.L, L := s.LS (s.FN ++ s.MD), SAR := s.L &&& 16777215#32, alu := s.L, aob := s.L, u := 0#8, w := 0#8,
      MB := 3#2, EDST := 3#2, LSA := s.FN ++ s.MD, initMem := true, ROAR := 0x725 } := by
  rw [w70c]; simp

/-- Word 725. -/
theorem w725 : ros 0x725 = {
      lu := 2, mv := 0, zp := 1792, zf := 9, zn := 4, tr := 3, ws := 4, sf := 7, iv := 0, al := 0, wm := 3, up := 2,
      md := 0, lb := 0, mb := 0, dg := 0, ul := 1, ur := 1, ce := 0, lx := 1, tc := 1, ry := 0, ad := 1, ab := 1,
      bb := 1, ss := 0 } := by
  decide +kernel

/-- `725 qe100-n2 E=0 0+L>M |U:R3>U V:0 W:U>WL,U>WR>W67>LB |LS:FN,J>LSA 7 |A:1 B:1 Z:724 ` -/
theorem x725 (e : Env) (ex : Bool) (s : S) :
    exec e (ros 0x725) ex s = .ok { s with
      M := s.L, alu := s.L, aob := s.L, u := BitVec.setWidth 8 s.R, w := BitVec.setWidth 8 s.R,
      LB := BitVec.setWidth 2 s.R, EDST := 3#2, LSA := s.FN ++ s.J, ROAR := 0x727 } := by
  rw [w725]; simp

/-- Word 727. -/
theorem w727 : ros 0x727 = {
      lu := 0, mv := 0, zp := 1856, zf := 0, zn := 4, tr := 7, ws := 4, sf := 7, iv := 0, al := 30, wm := 0, up := 2,
      md := 0, lb := 0, mb := 0, dg := 0, ul := 1, ur := 1, ce := 0, lx := 0, tc := 1, ry := 0, ad := 1, ab := 1,
      bb := 0, ss := 0 } := by
  decide +kernel

/-- `727 qe100-n4 E=0 0+0>L AL:D |U:0 V:0 W:U>WL,U>WR>0 |LS:FN,J>LSA 7 |A:1 B:0 Z:740 ` -/
theorem x727 (e : Env) (ex : Bool) (s : S) :
    exec e (ros 0x727) ex s = .ok { s with
      L := s.SDR, alu := 0#32, aob := s.SDR, u := 0#8, w := 0#8, EDST := 3#2, LSA := s.FN ++ s.J, ROAR := 0x742 } := by
  rw [w727]; simp

/-- Word 742. -/
theorem w742 : ros 0x742 = {
      lu := 7, mv := 0, zp := 256, zf := 10, zn := 4, tr := 0, ws := 3, sf := 6, iv := 0, al := 0, wm := 1, up := 2,
      md := 0, lb := 0, mb := 0, dg := 0, ul := 1, ur := 1, ce := 14, lx := 0, tc := 1, ry := 0, ad := 1, ab := 1,
      bb := 1, ss := 24 } := by
  decide +kernel

/-- `742 qe100-n5 E=e 0+0>T |U:LLB>U V:0 W:U>WL,U>WR>W>MMB |LS:WS,E>LSA LS>L>LS |SS:E>S47 |A:1 B:1 Z:128 ` -/
theorem x742 (e : Env) (ex : Bool) (s : S) :
    exec e (ros 0x742) ex s = .ok { s with
      L := s.LS 30#6, M := putByte s.M s.MB (byteOf s.L s.LB), alu := 0#32, aob := 0#32, u := byteOf s.L s.LB,
      w := byteOf s.L s.LB, EDST := 3#2, LSA := 30#6,
      St := { s.St with s4 := true, s5 := true, s6 := true, s7 := false }, ROAR := 0x12b } := by
  rw [w742]; simp

/-- Word 12b. -/
theorem w12b : ros 0x12b = {
      lu := 0, mv := 0, zp := 320, zf := 2, zn := 4, tr := 1, ws := 6, sf := 0, iv := 7, al := 0, wm := 0, up := 2,
      md := 0, lb := 0, mb := 0, dg := 0, ul := 1, ur := 1, ce := 0, lx := 0, tc := 1, ry := 2, ad := 1, ab := 56,
      bb := 0, ss := 0 } := by
  decide +kernel

/-- `12b qa800-q9 E=0 M+0>R |U:0 V:0 W:U>WL,U>WR>0 |LS:FN,MD>LSA R>LS |IV:IA+0/2>A |A:I-FETCH B:0 Z:148 ` -/
theorem x12b (e : Env) (ex : Bool) (s : S) :
    exec e (ros 0x12b) ex s = .ok { s with
      R := s.M, SAR := ifAddr s.REFETCH s.IA, alu := s.M, aob := s.M, u := 0#8, w := 0#8, EDST := 3#2,
      LSA := s.FN ++ s.MD, IVA := s.IVA || decide (e.memMax < ifAddr s.REFETCH s.IA),
      initMem := s.initMem || !decide (e.memMax < ifAddr s.REFETCH s.IA),
      ROAR := 328 ||| 2 * (ex || s.IA &&& 2#32 == 0#32).toNat + (ex || s.IA &&& 2#32 != 0#32 && s.REFETCH).toNat,
      LS := lsPut s.LS (s.FN ++ s.MD) s.M } := by
  rw [w12b]; simp

/-- Word 700. -/
theorem w700 : ros 0x700 = {
      lu := 0, mv := 0, zp := 1792, zf := 10, zn := 4, tr := 1, ws := 6, sf := 6, iv := 0, al := 0, wm := 0, up := 2,
      md := 0, lb := 0, mb := 0, dg := 0, ul := 1, ur := 1, ce := 12, lx := 1, tc := 1, ry := 0, ad := 1, ab := 0,
      bb := 1, ss := 18 } := by
  decide +kernel

/-- `700 qe555-e1 E=c 0+L>R |U:0 V:0 W:U>WL,U>WR>0 |LS:FN,MD>LSA LS>L>LS |SS:E->BS,T30->S3 |A:0 B:1 Z:728 ` -/
theorem x700 (e : Env) (ex : Bool) (s : S) :
    exec e (ros 0x700) ex s = .ok { s with
      R := s.L, L := s.LS (s.FN ++ s.MD), alu := s.L, aob := s.L, u := 0#8, w := 0#8, BS := 12#4, EDST := 3#2,
      LSA := s.FN ++ s.MD, St := { s.St with s3 := s.L &&& 2#32 != 0#32 }, ROAR := 0x729 } := by
  rw [w700]; simp

/-- Word 729. -/
theorem w729 : ros 0x729 = {
      lu := 0, mv := 0, zp := 1856, zf := 2, zn := 7, tr := 15, ws := 4, sf := 7, iv := 0, al := 0, wm := 0, up := 2,
      md := 0, lb := 0, mb := 0, dg := 0, ul := 1, ur := 1, ce := 0, lx := 0, tc := 1, ry := 1, ad := 1, ab := 29,
      bb := 5, ss := 0 } := by
  decide +kernel

/-- `729 qe555-e3 E=0 R+0>A |U:0 V:0 W:U>WL,U>WR>0 |LS:FN,J>LSA 7 |A:R(31) B:S3 Z:748 B|(A=1)>B` -/
theorem x729 (e : Env) (ex : Bool) (s : S) :
    exec e (ros 0x729) ex s = .ok { s with
      SAR := s.R &&& 16777215#32, alu := s.R, aob := s.R, u := 0#8, w := 0#8, EDST := 3#2, LSA := s.FN ++ s.J,
      initMem := true, ROAR := 1864 ||| 2 * (s.R &&& 1#32 != 0#32).toNat + (s.St.s3 || s.R &&& 1#32 != 0#32).toNat } := by
  rw [w729]; simp

/-- Word 748. -/
theorem w748 : ros 0x748 = {
      lu := 0, mv := 0, zp := 384, zf := 5, zn := 4, tr := 29, ws := 4, sf := 7, iv := 0, al := 0, wm := 0, up := 2,
      md := 0, lb := 0, mb := 0, dg := 0, ul := 1, ur := 1, ce := 0, lx := 4, tc := 1, ry := 0, ad := 1, ab := 1,
      bb := 1, ss := 0 } := by
  decide +kernel

/-- `748 qe555-c5 E=0 0+LRL>D*BS |U:0 V:0 W:U>WL,U>WR>0 |LS:FN,J>LSA 7 |A:1 B:1 Z:194 ` -/
theorem x748_k (e : Env) (ex : Bool) (s : S) (hk : Permit s) :
    exec e (ros 0x748) ex s = .ok { s with
      SDR := s.SDR &&& ~~~bsMask s.BS ||| s.L <<< 16 &&& bsMask s.BS, alu := s.L <<< 16, aob := s.L <<< 16, u := 0#8,
      w := 0#8, EDST := 3#2, LSA := s.FN ++ s.J, updD := true, ROAR := 0x197 } := by
  rw [w748]
  rcases hk with hk | ⟨h1, h2⟩
  · simp [hk]
  · simp only [keyIx, BitVec.toNat_ushiftRight] at h1 h2
    by_cases hk : s.KEY = 0#4 <;> simp [keyIx, hk, h1, h2]

theorem x748_p (e : Env) (ex : Bool) (s : S) (hk : Denied s) :
    exec e (ros 0x748) ex s = .ok { s with
      alu := s.L <<< 16, aob := s.L <<< 16, u := 0#8,
      w := 0#8, EDST := 3#2, LSA := s.FN ++ s.J, ROAR := 0x142 } := by
  rw [w748]
  obtain ⟨h0, h1, h2⟩ := hk
  simp only [keyIx, BitVec.toNat_ushiftRight] at h1 h2
  simp [keyIx, h0, h1, h2]

/-- Word 749. -/
theorem w749 : ros 0x749 = {
      lu := 0, mv := 0, zp := 2304, zf := 8, zn := 4, tr := 3, ws := 4, sf := 7, iv := 0, al := 0, wm := 0, up := 2,
      md := 0, lb := 0, mb := 0, dg := 0, ul := 1, ur := 1, ce := 3, lx := 1, tc := 1, ry := 0, ad := 1, ab := 0,
      bb := 0, ss := 19 } := by
  decide +kernel

/-- `749 qe555-g5 E=3 0+L>M |U:0 V:0 W:U>WL,U>WR>0 |LS:FN,J>LSA 7 |SS:E->BS |A:0 B:0 Z:920 ` -/
theorem x749 (e : Env) (ex : Bool) (s : S) :
    exec e (ros 0x749) ex s = .ok { s with
      M := s.L, alu := s.L, aob := s.L, u := 0#8, w := 0#8, BS := 3#4, EDST := 3#2, LSA := s.FN ++ s.J, ROAR := 0x920 } := by
  rw [w749]; simp

/-- Word 720. -/
theorem w720 : ros 0x720 = {
      lu := 0, mv := 0, zp := 1792, zf := 10, zn := 4, tr := 6, ws := 4, sf := 7, iv := 0, al := 0, wm := 0, up := 1,
      md := 0, lb := 0, mb := 1, dg := 0, ul := 1, ur := 1, ce := 15, lx := 1, tc := 1, ry := 0, ad := 1, ab := 1,
      bb := 1, ss := 18 } := by
  decide +kernel

/-- `720 qe580-s1 E=f 0+L>R,A |U:0 V:0 W:U>WL,U>WR>0 |LS:FN,J>LSA 7 |CNTmb=3 |SS:E->BS,T30->S3 |A:1 B:1 Z:728 ` -/
theorem x720 (e : Env) (ex : Bool) (s : S) :
    exec e (ros 0x720) ex s = .ok { s with
      R := s.L, SAR := s.L &&& 16777215#32, alu := s.L, aob := s.L, u := 0#8, w := 0#8, BS := 15#4, MB := 3#2,
      EDST := 3#2, LSA := s.FN ++ s.J, St := { s.St with s3 := s.L &&& 2#32 != 0#32 }, initMem := true, ROAR := 0x72b } := by
  rw [w720]; simp

/-- Word 72b. -/
theorem w72b : ros 0x72b = {
      lu := 1, mv := 0, zp := 1792, zf := 1, zn := 4, tr := 3, ws := 6, sf := 2, iv := 0, al := 0, wm := 6, up := 2,
      md := 0, lb := 0, mb := 0, dg := 0, ul := 1, ur := 1, ce := 14, lx := 0, tc := 0, ry := 0, ad := 1, ab := 29,
      bb := 1, ss := 24 } := by
  decide +kernel

/-- `72b qe580-g2 E=e 0-0>M |U:MD,F>U V:0 W:U>WL,U>WR>WL>J |LS:FN,MD>LSA LS>R>LS |SS:E>S47 |A:R(31) B:1 Z:704 ` -/
theorem x72b (e : Env) (ex : Bool) (s : S) :
    exec e (ros 0x72b) ex s = .ok { s with
      R := s.LS (s.FN ++ s.MD), M := 4294967295#32, alu := 4294967295#32, aob := 4294967295#32,
      u := BitVec.setWidth 8 s.MD <<< 4 ||| s.F, w := BitVec.setWidth 8 s.MD <<< 4 ||| s.F,
      J := BitVec.setWidth 4 ((BitVec.setWidth 8 s.MD <<< 4 ||| s.F) >>> 4), EDST := 3#2, LSA := s.FN ++ s.MD,
      St := { s.St with s4 := true, s5 := true, s6 := true, s7 := false },
      ROAR := 1796 ||| 2 * (s.R &&& 1#32 != 0#32).toNat + 1 } := by
  rw [w72b]; simp

/-- Word 705. -/
theorem w705 : ros 0x705 = {
      lu := 0, mv := 0, zp := 1792, zf := 2, zn := 4, tr := 7, ws := 4, sf := 7, iv := 0, al := 30, wm := 0, up := 2,
      md := 0, lb := 0, mb := 0, dg := 0, ul := 1, ur := 1, ce := 2, lx := 0, tc := 1, ry := 0, ad := 1, ab := 5,
      bb := 1, ss := 38 } := by
  decide +kernel

/-- `705 qe580-g3 E=2 0+0>L AL:D |U:0 V:0 W:U>WL,U>WR>0 |LS:FN,J>LSA 7 |SS:E(13)>WFN |A:S3 B:1 Z:708 ` -/
theorem x705 (e : Env) (ex : Bool) (s : S) :
    exec e (ros 0x705) ex s = .ok { s with
      L := s.SDR, alu := 0#32, aob := s.SDR, u := 0#8, w := 0#8, EDST := 3#2, mvf := 2#3, LSA := s.FN ++ s.J,
      ROAR := 1800 ||| 2 * s.St.s3.toNat + 1 } := by
  rw [w705]; simp

/-- Word 709. -/
theorem w709 : ros 0x709 = {
      lu := 0, mv := 0, zp := 1856, zf := 3, zn := 4, tr := 26, ws := 4, sf := 7, iv := 0, al := 0, wm := 0, up := 2,
      md := 0, lb := 0, mb := 0, dg := 0, ul := 1, ur := 1, ce := 0, lx := 1, tc := 1, ry := 0, ad := 1, ab := 21,
      bb := 31, ss := 0 } := by
  decide +kernel

/-- `709 qe580-e5 E=0 0+L>MHL |U:0 V:0 W:U>WL,U>WR>0 |LS:FN,J>LSA 7 |A:MB=3 B:(Z00) Z:74c ` -/
theorem x709 (e : Env) (ex : Bool) (s : S) :
    exec e (ros 0x709) ex s = .ok { s with
      M := s.M &&& 4294901760#32 ||| s.L >>> 16, alu := s.L, aob := s.L, u := 0#8, w := 0#8,
      MD := BitVec.setWidth 4 (s.L >>> 28), EDST := 3#2, LSA := s.FN ++ s.J,
      ROAR := (1868 ||| 2 * (s.MB == 3#2).toNat) / 4 * 4 ||| 2 * (s.MB == 3#2).toNat + (BitVec.msb s.L).toNat } := by
  rw [w709]; simp

/-- Word 70b. -/
theorem w70b : ros 0x70b = {
      lu := 0, mv := 0, zp := 1856, zf := 3, zn := 4, tr := 26, ws := 4, sf := 7, iv := 0, al := 0, wm := 0, up := 2,
      md := 0, lb := 0, mb := 0, dg := 0, ul := 1, ur := 1, ce := 0, lx := 4, tc := 1, ry := 0, ad := 1, ab := 21,
      bb := 31, ss := 0 } := by
  decide +kernel

/-- `70b qe580-j5 E=0 0+LRL>MHL |U:0 V:0 W:U>WL,U>WR>0 |LS:FN,J>LSA 7 |A:MB=3 B:(Z00) Z:74c ` -/
theorem x70b (e : Env) (ex : Bool) (s : S) :
    exec e (ros 0x70b) ex s = .ok { s with
      L := s.L <<< 16, M := s.M &&& 4294901760#32 ||| s.L <<< 16 >>> 16, alu := s.L <<< 16, aob := s.L <<< 16,
      u := 0#8, w := 0#8, MD := BitVec.setWidth 4 (s.L <<< 16 >>> 28), EDST := 3#2, LSA := s.FN ++ s.J,
      ROAR := (1868 ||| 2 * (s.MB == 3#2).toNat) / 4 * 4 ||| 2 * (s.MB == 3#2).toNat + (BitVec.getMsbD s.L 16).toNat } := by
  rw [w70b]; simp

/-- Word 74e. -/
theorem w74e : ros 0x74e = {
      lu := 0, mv := 0, zp := 320, zf := 1, zn := 1, tr := 1, ws := 4, sf := 0, iv := 7, al := 0, wm := 0, up := 2,
      md := 0, lb := 0, mb := 0, dg := 0, ul := 1, ur := 1, ce := 0, lx := 0, tc := 1, ry := 3, ad := 1, ab := 56,
      bb := 0, ss := 0 } := by
  decide +kernel

/-- `74e qe580-a6 E=0 M23+0>R |U:0 V:0 W:U>WL,U>WR>0 |LS:FN,J>LSA R>LS |IV:IA+0/2>A |A:I-FETCH B:0 Z:144 SMIF` -/
theorem x74e (e : Env) (ex : Bool) (s : S) :
    exec e (ros 0x74e) ex s = .ok { s with
      R := s.M &&& 65535#32, SAR := if s.REFETCH = false ∧ ¬s.IA &&& 2#32 = 0#32 then s.SAR else ifAddr s.REFETCH s.IA,
      alu := s.M &&& 65535#32, aob := s.M &&& 65535#32, u := 0#8, w := 0#8, EDST := 3#2, LSA := s.FN ++ s.J,
      IVA := s.IVA || (s.REFETCH || !s.IA &&& 2#32 != 0#32) && decide (e.memMax < ifAddr s.REFETCH s.IA),
      initMem := s.initMem || (s.REFETCH || !s.IA &&& 2#32 != 0#32) && !decide (e.memMax < ifAddr s.REFETCH s.IA),
      ROAR := 324 ||| 2 * (ex || s.IA &&& 2#32 == 0#32).toNat + (ex || s.IA &&& 2#32 != 0#32 && s.REFETCH).toNat,
      LS := lsPut s.LS (s.FN ++ s.J) (s.M &&& 65535#32) } := by
  rw [w74e]; simp

/-- Word 74f. -/
theorem w74f : ros 0x74f = {
      lu := 0, mv := 0, zp := 320, zf := 1, zn := 1, tr := 1, ws := 4, sf := 0, iv := 7, al := 0, wm := 0, up := 2,
      md := 0, lb := 0, mb := 0, dg := 0, ul := 1, ur := 1, ce := 0, lx := 0, tc := 1, ry := 2, ad := 1, ab := 56,
      bb := 0, ss := 0 } := by
  decide +kernel

/-- `74f qe580-e6 E=0 M+0>R |U:0 V:0 W:U>WL,U>WR>0 |LS:FN,J>LSA R>LS |IV:IA+0/2>A |A:I-FETCH B:0 Z:144 SMIF` -/
theorem x74f (e : Env) (ex : Bool) (s : S) :
    exec e (ros 0x74f) ex s = .ok { s with
      R := s.M, SAR := if s.REFETCH = false ∧ ¬s.IA &&& 2#32 = 0#32 then s.SAR else ifAddr s.REFETCH s.IA, alu := s.M,
      aob := s.M, u := 0#8, w := 0#8, EDST := 3#2, LSA := s.FN ++ s.J,
      IVA := s.IVA || (s.REFETCH || !s.IA &&& 2#32 != 0#32) && decide (e.memMax < ifAddr s.REFETCH s.IA),
      initMem := s.initMem || (s.REFETCH || !s.IA &&& 2#32 != 0#32) && !decide (e.memMax < ifAddr s.REFETCH s.IA),
      ROAR := 324 ||| 2 * (ex || s.IA &&& 2#32 == 0#32).toNat + (ex || s.IA &&& 2#32 != 0#32 && s.REFETCH).toNat,
      LS := lsPut s.LS (s.FN ++ s.J) s.M } := by
  rw [w74f]; simp

/-- Word 724. -/
theorem w724 : ros 0x724 = {
      lu := 0, mv := 0, zp := 1792, zf := 10, zn := 4, tr := 6, ws := 4, sf := 7, iv := 0, al := 0, wm := 0, up := 2,
      md := 0, lb := 0, mb := 0, dg := 3, ul := 1, ur := 1, ce := 15, lx := 1, tc := 1, ry := 0, ad := 1, ab := 1,
      bb := 1, ss := 18 } := by
  decide +kernel

/-- `724 qe580-a1 E=f 0+L>R,A |U:0 V:0 W:U>WL,U>WR>0 |LS:FN,J>LSA 7 |DG:G1-1 |SS:E->BS,T30->S3 |A:1 B:1 Z:728 ` -/
theorem x724 (e : Env) (ex : Bool) (s : S) :
    exec e (ros 0x724) ex s = .ok { s with
      R := s.L, SAR := s.L &&& 16777215#32, alu := s.L, aob := s.L, u := 0#8, w := 0#8,
      G := s.G &&& 15#8 ||| s.G - 16#8 &&& 240#8, BS := 15#4, EDST := 3#2, LSA := s.FN ++ s.J,
      St := { s.St with s3 := s.L &&& 2#32 != 0#32 }, G1NEG := s.G1NEG || s.G &&& 240#8 == 0#8, initMem := true,
      ROAR := 0x72b } := by
  rw [w724]; simp

/-- Word 74c. -/
theorem w74c : ros 0x74c = {
      lu := 0, mv := 0, zp := 512, zf := 8, zn := 4, tr := 7, ws := 4, sf := 7, iv := 0, al := 0, wm := 11, up := 2,
      md := 0, lb := 0, mb := 0, dg := 0, ul := 1, ur := 1, ce := 0, lx := 0, tc := 1, ry := 3, ad := 1, ab := 24,
      bb := 24, ss := 33 } := by
  decide +kernel

/-- `74c qe580-l6 E=0 M23+0>L |U:0 V:0 W:U>WL,U>WR>W>G |LS:FN,J>LSA 7 |SS:0->LSGNS |A:G1NEG B:G2NEG Z:220 ` -/
theorem x74c (e : Env) (ex : Bool) (s : S) :
    exec e (ros 0x74c) ex s = .ok { s with
      L := s.M &&& 65535#32, alu := s.M &&& 65535#32, aob := s.M &&& 65535#32, u := 0#8, w := 0#8, G := 0#8,
      EDST := 3#2, LSA := s.FN ++ s.J, LSGNS := false, G1NEG := false, G2NEG := false,
      ROAR := 544 ||| 2 * s.G1NEG.toNat + s.G2NEG.toNat } := by
  rw [w74c]; simp

/-- Word 74d. -/
theorem w74d : ros 0x74d = {
      lu := 0, mv := 0, zp := 512, zf := 8, zn := 4, tr := 7, ws := 4, sf := 7, iv := 0, al := 0, wm := 11, up := 2,
      md := 0, lb := 0, mb := 0, dg := 0, ul := 1, ur := 1, ce := 0, lx := 0, tc := 1, ry := 2, ad := 1, ab := 24,
      bb := 24, ss := 32 } := by
  decide +kernel

/-- `74d qe580-q6 E=0 M+0>L |U:0 V:0 W:U>WL,U>WR>W>G |LS:FN,J>LSA 7 |SS:1->LSGNS |A:G1NEG B:G2NEG Z:220 ` -/
theorem x74d (e : Env) (ex : Bool) (s : S) :
    exec e (ros 0x74d) ex s = .ok { s with
      L := s.M, alu := s.M, aob := s.M, u := 0#8, w := 0#8, G := 0#8, EDST := 3#2, LSA := s.FN ++ s.J, LSGNS := true,
      G1NEG := false, G2NEG := false, ROAR := 544 ||| 2 * s.G1NEG.toNat + s.G2NEG.toNat } := by
  rw [w74d]; simp

/-- Word 222. -/
theorem w222 : ros 0x222 = {
      lu := 0, mv := 0, zp := 640, zf := 1, zn := 4, tr := 3, ws := 4, sf := 7, iv := 0, al := 0, wm := 1, up := 2,
      md := 0, lb := 0, mb := 0, dg := 2, ul := 0, ur := 1, ce := 15, lx := 1, tc := 0, ry := 1, ad := 5, ab := 1,
      bb := 30, ss := 41 } := by
  decide +kernel

/-- `222 qe580-e8 E=f R-L>M AD:BC^C |U:0 V:0 W:E>WL,U>WR>W>MMB |LS:FN,J>LSA 7 |DG:HOT1>ADDR |SS:SETCRALG |A:1 B:(CAR) Z:284 ` -/
theorem x222 (e : Env) (ex : Bool) (s : S) :
    exec e (ros 0x222) ex s = .ok { s with
      M := ~~~s.L + s.R + 1#32 &&& 4294967040#32 ||| 240#32, alu := ~~~s.L + s.R + 1#32, aob := ~~~s.L + s.R + 1#32,
      u := 0#8, w := 240#8, EDST := 3#2,
      CC := if ~~~s.L + s.R + 1#32 = 0#32 then 0#2 else if BitVec.msb (~~~s.L + s.R + 1#32) = true then 1#2 else 2#2,
      LSA := s.FN ++ s.J,
      ROAR := 644 ||| 2 + (BitVec.msb (carriesOf (~~~s.L) s.R (~~~s.L + s.R + 1#32)) ^^ BitVec.getMsbD (carriesOf (~~~s.L) s.R (~~~s.L + s.R + 1#32)) 1).toNat } := by
  rw [w222]; simp

/-- Word 728. -/
theorem w728 : ros 0x728 = {
      lu := 0, mv := 0, zp := 1792, zf := 10, zn := 4, tr := 6, ws := 4, sf := 7, iv := 0, al := 0, wm := 0, up := 2,
      md := 0, lb := 0, mb := 0, dg := 0, ul := 1, ur := 1, ce := 15, lx := 1, tc := 1, ry := 0, ad := 1, ab := 1,
      bb := 1, ss := 18 } := by
  decide +kernel

/-- `728 qe580-n1 E=f 0+L>R,A |U:0 V:0 W:U>WL,U>WR>0 |LS:FN,J>LSA 7 |SS:E->BS,T30->S3 |A:1 B:1 Z:728 ` -/
theorem x728 (e : Env) (ex : Bool) (s : S) :
    exec e (ros 0x728) ex s = .ok { s with
      R := s.L, SAR := s.L &&& 16777215#32, alu := s.L, aob := s.L, u := 0#8, w := 0#8, BS := 15#4, EDST := 3#2,
      LSA := s.FN ++ s.J, St := { s.St with s3 := s.L &&& 2#32 != 0#32 }, initMem := true, ROAR := 0x72b } := by
  rw [w728]; simp

/-- Word 72c. -/
theorem w72c : ros 0x72c = {
      lu := 0, mv := 0, zp := 1792, zf := 10, zn := 4, tr := 6, ws := 4, sf := 7, iv := 0, al := 0, wm := 0, up := 2,
      md := 0, lb := 0, mb := 0, dg := 5, ul := 1, ur := 1, ce := 15, lx := 1, tc := 1, ry := 0, ad := 1, ab := 1,
      bb := 1, ss := 18 } := by
  decide +kernel

/-- `72c qe580-j1 E=f 0+L>R,A |U:0 V:0 W:U>WL,U>WR>0 |LS:FN,J>LSA 7 |DG:G2-1 |SS:E->BS,T30->S3 |A:1 B:1 Z:728 ` -/
theorem x72c (e : Env) (ex : Bool) (s : S) :
    exec e (ros 0x72c) ex s = .ok { s with
      R := s.L, SAR := s.L &&& 16777215#32, alu := s.L, aob := s.L, u := 0#8, w := 0#8,
      G := s.G &&& 240#8 ||| s.G - 1#8 &&& 15#8, BS := 15#4, EDST := 3#2, LSA := s.FN ++ s.J,
      St := { s.St with s3 := s.L &&& 2#32 != 0#32 }, G2NEG := s.G2NEG || s.G &&& 15#8 == 0#8, initMem := true,
      ROAR := 0x72b } := by
  rw [w72c]; simp

/-- Word 71c. -/
theorem w71c : ros 0x71c = {
      lu := 0, mv := 0, zp := 448, zf := 1, zn := 4, tr := 0, ws := 4, sf := 7, iv := 0, al := 0, wm := 0, up := 2,
      md := 0, lb := 0, mb := 0, dg := 0, ul := 1, ur := 1, ce := 0, lx := 0, tc := 1, ry := 0, ad := 1, ab := 16,
      bb := 0, ss := 0 } := by
  decide +kernel

/-- `71c qa700-a1 E=0 0+0>T |U:0 V:0 W:U>WL,U>WR>0 |LS:FN,J>LSA 7 |A:CRMD B:0 Z:1c4 ` -/
theorem x71c (e : Env) (ex : Bool) (s : S) :
    exec e (ros 0x71c) ex s = .ok { s with
      alu := 0#32, aob := 0#32, u := 0#8, w := 0#8, EDST := 3#2, LSA := s.FN ++ s.J,
      ROAR := 452 ||| 2 * (s.MD &&& 8#4 >>> s.CC.toNat != 0#4).toNat } := by
  rw [w71c]; simp

end Verif.Cpu50
