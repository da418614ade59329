import Verif.Cpu50.Words6

/-!
# Model 2050: words of the interval timer

Written by a script from the model itself; each lemma is the effect of one word of `/repo/src/model2050/ros.txt`
on the processor, with the text of the word as the listing names its fields.
-/

namespace Verif.Cpu50

attribute [local simp] exec needsChan front condA condB combine abBits nextBase leftBus leftIn rightBus rightIn uBus vBus ceB moverL moverR adCin ivStep smif dgStep cinW adder adStep lateB alStep ssEarly trStep protect ssLate wsStep wmStep upStep finish Out.bind ceBit fpStats Nat.testBit_eq_decide_div_mod_eq mov_whole

/-- Word 103. -/
theorem w103 : ros 0x103 = {
      lu := 0, mv := 0, zp := 384, zf := 4, zn := 4, tr := 21, ws := 4, sf := 7, iv := 0, al := 0, wm := 0, up := 2,
      md := 0, lb := 0, mb := 0, dg := 0, ul := 1, ur := 1, ce := 0, lx := 0, tc := 1, ry := 1, ad := 1, ab := 0,
      bb := 1, ss := 45 } := by
  decide +kernel

/-- `103 qt200-e1 E=0 R+0>IA |U:0 V:0 W:U>WL,U>WR>0 |LS:FN,J>LSA 7 |SS:1->REFETCH |A:0 B:1 Z:190 ` -/
theorem x103 (e : Env) (ex : Bool) (s : S) :
    exec e (ros 0x103) ex s = .ok { s with
      IA := s.R &&& 16777215#32, alu := s.R, aob := s.R, u := 0#8, w := 0#8, EDST := 3#2, LSA := s.FN ++ s.J,
      REFETCH := true, ROAR := 0x191 } := by
  rw [w103]; simp

/-- Word 191. -/
theorem w191 : ros 0x191 = {
      lu := 0, mv := 0, zp := 384, zf := 3, zn := 7, tr := 28, ws := 4, sf := 7, iv := 0, al := 6, wm := 0, up := 1,
      md := 0, lb := 1, mb := 1, dg := 0, ul := 1, ur := 1, ce := 0, lx := 0, tc := 1, ry := 0, ad := 1, ab := 58,
      bb := 0, ss := 28 } := by
  decide +kernel

/-- `191 qt200-c2 E=0 0+0>M,SP AL:IA>H |U:0 V:0 W:U>WL,U>WR>0 |LS:FN,J>LSA 7 |CNTlbmb=3 |SS:OPPANEL->S47 |A:EXT,CHIRPT B:0 Z:18c B|(A=1)>B` -/
theorem x191 (e : Env) (ex : Bool) (s : S) :
    exec e (ros 0x191) ex s = .ok { s with
      H := s.H &&& 4278190080#32 ||| s.IA &&& 16777215#32, M := 0#32, alu := 0#32, aob := 0#32, u := 0#8, w := 0#8,
      KEY := 0#4, MB := 3#2, LB := 3#2, EDST := 3#2, LSA := s.FN ++ s.J,
      St := { s.St with s4 := false, s5 := false, s6 := false, s7 := false },
      ROAR := 396 ||| 2 * (s.timUp || s.MASK &&& 1#8 != 0#8 && (s.intr || s.timIrq)).toNat + (s.timUp || s.BCHI &&& s.MASK != 0#8 || (s.timUp || s.MASK &&& 1#8 != 0#8 && (s.intr || s.timIrq))).toNat } := by
  rw [w191]; simp

/-- Word 1a3. -/
theorem w1a3 : ros 0x1a3 = {
      lu := 0, mv := 0, zp := 384, zf := 6, zn := 4, tr := 1, ws := 1, sf := 0, iv := 0, al := 0, wm := 1, up := 2,
      md := 0, lb := 0, mb := 1, dg := 0, ul := 1, ur := 1, ce := 0, lx := 0, tc := 1, ry := 2, ad := 1, ab := 0,
      bb := 0, ss := 0 } := by
  decide +kernel

/-- `1a3 qt210-c3 E=0 M+0>R |U:0 V:0 W:U>WL,U>WR>W>MMB |LS:WS1>LSA R>LS |CNTmb- |A:0 B:0 Z:198 ` -/
theorem x1a3 (e : Env) (ex : Bool) (s : S) :
    exec e (ros 0x1a3) ex s = .ok { s with
      R := s.M, M := putByte s.M s.MB 0#8, alu := s.M, aob := s.M, u := 0#8, w := 0#8, MB := s.MB - 1#2, EDST := 3#2,
      LSA := 17#6, ROAR := 0x198, LS := lsPut s.LS (17#6) s.M } := by
  rw [w1a3]; simp

/-- Word 198. -/
theorem w198 : ros 0x198 = {
      lu := 0, mv := 0, zp := 384, zf := 8, zn := 4, tr := 15, ws := 4, sf := 7, iv := 0, al := 0, wm := 1, up := 2,
      md := 0, lb := 0, mb := 0, dg := 0, ul := 1, ur := 0, ce := 6, lx := 0, tc := 1, ry := 1, ad := 1, ab := 0,
      bb := 0, ss := 0 } := by
  decide +kernel

/-- `198 qt210-c4 E=6 R+0>A |U:0 V:0 W:U>WL,E>WR>W>MMB |LS:FN,J>LSA 7 |A:0 B:0 Z:1a0 ` -/
theorem x198 (e : Env) (ex : Bool) (s : S) :
    exec e (ros 0x198) ex s = .ok { s with
      M := putByte s.M s.MB 6#8, SAR := s.R &&& 16777215#32, alu := s.R, aob := s.R, u := 0#8, w := 6#8, EDST := 3#2,
      LSA := s.FN ++ s.J, initMem := true, ROAR := 0x1a0 } := by
  rw [w198]; simp

/-- Word 1a0. -/
theorem w1a0 : ros 0x1a0 = {
      lu := 0, mv := 0, zp := 384, zf := 9, zn := 4, tr := 7, ws := 4, sf := 7, iv := 0, al := 0, wm := 14, up := 2,
      md := 0, lb := 0, mb := 0, dg := 0, ul := 1, ur := 1, ce := 0, lx := 0, tc := 1, ry := 2, ad := 1, ab := 0,
      bb := 0, ss := 0 } := by
  decide +kernel

/-- `1a0 qt210-c5 E=0 M+0>L |U:0 V:0 W:U>WL,U>WR>WR>F |LS:FN,J>LSA 7 |A:0 B:0 Z:1a4 ` -/
theorem x1a0 (e : Env) (ex : Bool) (s : S) :
    exec e (ros 0x1a0) ex s = .ok { s with
      L := s.M, alu := s.M, aob := s.M, u := 0#8, w := 0#8, F := 0#8, EDST := 3#2, LSA := s.FN ++ s.J, ROAR := 0x1a4 } := by
  rw [w1a0]; simp

/-- Word 1a4. -/
theorem w1a4 : ros 0x1a4 = {
      lu := 0, mv := 0, zp := 448, zf := 2, zn := 4, tr := 1, ws := 4, sf := 7, iv := 0, al := 30, wm := 0, up := 2,
      md := 0, lb := 0, mb := 0, dg := 0, ul := 1, ur := 1, ce := 0, lx := 0, tc := 1, ry := 0, ad := 1, ab := 1,
      bb := 1, ss := 0 } := by
  decide +kernel

/-- `1a4 qt210-c6 E=0 0+0>R AL:D |U:0 V:0 W:U>WL,U>WR>0 |LS:FN,J>LSA 7 |A:1 B:1 Z:1c8 ` -/
theorem x1a4 (e : Env) (ex : Bool) (s : S) :
    exec e (ros 0x1a4) ex s = .ok { s with
      R := s.SDR, alu := 0#32, aob := s.SDR, u := 0#8, w := 0#8, EDST := 3#2, LSA := s.FN ++ s.J, ROAR := 0x1cb } := by
  rw [w1a4]; simp

/-- Word 1cb. -/
theorem w1cb : ros 0x1cb = {
      lu := 0, mv := 0, zp := 448, zf := 3, zn := 4, tr := 7, ws := 1, sf := 2, iv := 0, al := 0, wm := 0, up := 2,
      md := 0, lb := 0, mb := 0, dg := 2, ul := 1, ur := 1, ce := 0, lx := 1, tc := 0, ry := 1, ad := 4, ab := 0,
      bb := 1, ss := 0 } := by
  decide +kernel

/-- `1cb qt210-c7 E=0 R-L>L AD:BC0 |U:0 V:0 W:U>WL,U>WR>0 |LS:WS1>LSA LS>R>LS |DG:HOT1>ADDR |A:0 B:1 Z:1cc ` -/
theorem x1cb (e : Env) (ex : Bool) (s : S) :
    exec e (ros 0x1cb) ex s = .ok { s with
      R := s.LS 17#6, L := ~~~s.L + s.R + 1#32, alu := ~~~s.L + s.R + 1#32, aob := ~~~s.L + s.R + 1#32, u := 0#8,
      w := 0#8, EDST := 3#2, LSA := 17#6, CAR := BitVec.msb (carriesOf (~~~s.L) s.R (~~~s.L + s.R + 1#32)),
      ROAR := 0x1cd } := by
  rw [w1cb]; simp

/-- Word 1cd. -/
theorem w1cd : ros 0x1cd = {
      lu := 0, mv := 0, zp := 384, zf := 9, zn := 4, tr := 15, ws := 3, sf := 2, iv := 0, al := 0, wm := 0, up := 2,
      md := 0, lb := 0, mb := 0, dg := 0, ul := 1, ur := 1, ce := 7, lx := 0, tc := 1, ry := 1, ad := 1, ab := 10,
      bb := 1, ss := 0 } := by
  decide +kernel

/-- `1cd qt210-c8 E=7 R+0>A |U:0 V:0 W:U>WL,U>WR>0 |LS:WS,E>LSA LS>R>LS |A:Carry B:1 Z:1a4 ` -/
theorem x1cd (e : Env) (ex : Bool) (s : S) :
    exec e (ros 0x1cd) ex s = .ok { s with
      R := s.LS 23#6, SAR := s.R &&& 16777215#32, alu := s.R, aob := s.R, u := 0#8, w := 0#8, EDST := 3#2, LSA := 23#6,
      initMem := true, ROAR := 420 ||| 2 * s.CAR.toNat + 1 } := by
  rw [w1cd]; simp

/-- Word 1a5. -/
theorem w1a5 : ros 0x1a5 = {
      lu := 0, mv := 0, zp := 384, zf := 10, zn := 4, tr := 4, ws := 4, sf := 7, iv := 0, al := 0, wm := 0, up := 2,
      md := 0, lb := 0, mb := 0, dg := 0, ul := 1, ur := 1, ce := 0, lx := 1, tc := 1, ry := 0, ad := 1, ab := 0,
      bb := 0, ss := 54 } := by
  decide +kernel

/-- `1a5 qt210-j6 E=0 0+L>D |U:0 V:0 W:U>WL,U>WR>0 |LS:FN,J>LSA 7 |SS:1->TIMERIRPT |A:0 B:0 Z:1a8 ` -/
theorem x1a5 (e : Env) (ex : Bool) (s : S) (hk : s.KEY = 0#4) :
    exec e (ros 0x1a5) ex s = .ok { s with
      SDR := s.L, alu := s.L, aob := s.L, u := 0#8, w := 0#8, KEY := 0#4, EDST := 3#2, LSA := s.FN ++ s.J,
      updD := true, ROAR := 0x1a8, timIrq := true } := by
  rw [w1a5]; simp [hk]

/-- Word 1a7. -/
theorem w1a7 : ros 0x1a7 = {
      lu := 0, mv := 0, zp := 384, zf := 10, zn := 4, tr := 4, ws := 4, sf := 7, iv := 0, al := 0, wm := 0, up := 2,
      md := 0, lb := 0, mb := 0, dg := 0, ul := 1, ur := 1, ce := 0, lx := 1, tc := 1, ry := 0, ad := 1, ab := 0,
      bb := 0, ss := 0 } := by
  decide +kernel

/-- `1a7 qt210-l7 E=0 0+L>D |U:0 V:0 W:U>WL,U>WR>0 |LS:FN,J>LSA 7 |A:0 B:0 Z:1a8 ` -/
theorem x1a7 (e : Env) (ex : Bool) (s : S) (hk : s.KEY = 0#4) :
    exec e (ros 0x1a7) ex s = .ok { s with
      SDR := s.L, alu := s.L, aob := s.L, u := 0#8, w := 0#8, KEY := 0#4, EDST := 3#2, LSA := s.FN ++ s.J,
      updD := true, ROAR := 0x1a8 } := by
  rw [w1a7]; simp [hk]

/-- Word 1a8. -/
theorem w1a8 : ros 0x1a8 = {
      lu := 0, mv := 0, zp := 384, zf := 11, zn := 4, tr := 28, ws := 4, sf := 7, iv := 0, al := 6, wm := 0, up := 2,
      md := 0, lb := 0, mb := 0, dg := 0, ul := 1, ur := 1, ce := 0, lx := 0, tc := 1, ry := 1, ad := 1, ab := 0,
      bb := 0, ss := 0 } := by
  decide +kernel

/-- `1a8 qt210-g8 E=0 R+0>M,SP AL:IA>H |U:0 V:0 W:U>WL,U>WR>0 |LS:FN,J>LSA 7 |A:0 B:0 Z:1ac ` -/
theorem x1a8 (e : Env) (ex : Bool) (s : S) :
    exec e (ros 0x1a8) ex s = .ok { s with
      H := s.H &&& 4278190080#32 ||| s.IA &&& 16777215#32, M := s.R, alu := s.R, aob := s.R, u := 0#8, w := 0#8,
      KEY := BitVec.setWidth 4 (s.R >>> 20), EDST := 3#2, LSA := s.FN ++ s.J, ROAR := 0x1ac } := by
  rw [w1a8]; simp

/-- Word 1ac. -/
theorem w1ac : ros 0x1ac = {
      lu := 0, mv := 0, zp := 256, zf := 0, zn := 4, tr := 9, ws := 4, sf := 7, iv := 0, al := 0, wm := 0, up := 2,
      md := 0, lb := 0, mb := 0, dg := 0, ul := 1, ur := 1, ce := 15, lx := 0, tc := 1, ry := 4, ad := 1, ab := 1,
      bb := 12, ss := 18 } := by
  decide +kernel

/-- `1ac qt210-g9 E=f H+0>R,AN |U:0 V:0 W:U>WL,U>WR>0 |LS:FN,J>LSA 7 |SS:E->BS,T30->S3 |A:1 B:EXC Z:100 ` -/
theorem x1ac (e : Env) (ex : Bool) (s : S) :
    exec e (ros 0x1ac) ex s = .ok { s with
      R := s.H, SAR := s.H &&& 16777215#32, alu := s.H, aob := s.H, u := 0#8, w := 0#8, BS := 15#4, EDST := 3#2,
      LSA := s.FN ++ s.J, St := { s.St with s3 := s.H &&& 2#32 != 0#32 },
      IVA := s.IVA || decide (e.memMax < s.H &&& 16777215#32),
      initMem := s.initMem || !decide (e.memMax < s.H &&& 16777215#32), ROAR := 256 ||| 2 + ex.toNat } := by
  rw [w1ac]; simp

end Verif.Cpu50
