import Verif.Cpu50.Words4

/-!
# Model 2050: words of the RS instructions

Written by a script from the model itself; each lemma is the effect of one word of `/repo/src/model2050/ros.txt`
on the processor, with the text of the word as the listing names its fields.
-/

namespace Verif.Cpu50

attribute [local simp] exec needsChan front condA condB combine abBits nextBase leftBus leftIn rightBus rightIn uBus vBus ceB moverL moverR adCin ivStep smif dgStep cinW adder adStep lateB alStep ssEarly trStep protect ssLate wsStep wmStep upStep finish Out.bind ceBit fpStats Nat.testBit_eq_decide_div_mod_eq mov_whole

/-- Word 120. -/
theorem w120 : ros 0x120 = {
      lu := 0, mv := 0, zp := 1792, zf := 8, zn := 0, tr := 1, ws := 6, sf := 6, iv := 0, al := 0, wm := 14, up := 2,
      md := 0, lb := 0, mb := 0, dg := 0, ul := 1, ur := 1, ce := 0, lx := 1, tc := 1, ry := 3, ad := 1, ab := 1,
      bb := 0, ss := 0 } := by
  decide +kernel

/-- `120 qj011-a1 E=0 M23+L>R |U:0 V:0 W:U>WL,U>WR>WR>F |LS:FN,MD>LSA LS>L>LS |A:1 B:0 Z:700 M(47)>>ROAR` -/
theorem x120 (e : Env) (ex : Bool) (s : S) :
    exec e (ros 0x120) ex s = .ok { s with
      R := s.L + (s.M &&& 65535#32), L := s.LS (s.FN ++ s.MD), alu := s.L + (s.M &&& 65535#32),
      aob := s.L + (s.M &&& 65535#32), u := 0#8, w := 0#8, F := 0#8, EDST := 3#2, LSA := s.FN ++ s.MD,
      ROAR := 1792 ||| nib s.M 6 <<< 2 ||| 2 } := by
  rw [w120]; simp

/-- Word 121. -/
theorem w121 : ros 0x121 = {
      lu := 0, mv := 0, zp := 1792, zf := 8, zn := 0, tr := 1, ws := 6, sf := 6, iv := 0, al := 0, wm := 14, up := 2,
      md := 0, lb := 0, mb := 0, dg := 0, ul := 1, ur := 1, ce := 0, lx := 0, tc := 1, ry := 3, ad := 1, ab := 1,
      bb := 0, ss := 0 } := by
  decide +kernel

/-- `121 qj011-e1 E=0 M23+0>R |U:0 V:0 W:U>WL,U>WR>WR>F |LS:FN,MD>LSA LS>L>LS |A:1 B:0 Z:700 M(47)>>ROAR` -/
theorem x121 (e : Env) (ex : Bool) (s : S) :
    exec e (ros 0x121) ex s = .ok { s with
      R := s.M &&& 65535#32, L := s.LS (s.FN ++ s.MD), alu := s.M &&& 65535#32, aob := s.M &&& 65535#32, u := 0#8,
      w := 0#8, F := 0#8, EDST := 3#2, LSA := s.FN ++ s.MD, ROAR := 1792 ||| nib s.M 6 <<< 2 ||| 2 } := by
  rw [w121]; simp

/-- Word 71a. -/
theorem w71a : ros 0x71a = {
      lu := 0, mv := 0, zp := 1792, zf := 15, zn := 4, tr := 3, ws := 4, sf := 2, iv := 0, al := 0, wm := 0, up := 2,
      md := 0, lb := 0, mb := 0, dg := 0, ul := 1, ur := 1, ce := 1, lx := 0, tc := 1, ry := 1, ad := 1, ab := 1,
      bb := 1, ss := 10 } := by
  decide +kernel

/-- `71a qj600-e1 E=1 R+0>M |U:0 V:0 W:U>WL,U>WR>0 |LS:FN,J>LSA LS>R>LS |SS:S03|E |A:1 B:1 Z:73c ` -/
theorem x71a (e : Env) (ex : Bool) (s : S) :
    exec e (ros 0x71a) ex s = .ok { s with
      R := s.LS (s.FN ++ s.J), M := s.R, alu := s.R, aob := s.R, u := 0#8, w := 0#8, EDST := 3#2, LSA := s.FN ++ s.J,
      St := { s.St with s3 := true }, ROAR := 0x73f } := by
  rw [w71a]; simp

/-- Word 71e. -/
theorem w71e : ros 0x71e = {
      lu := 0, mv := 0, zp := 1792, zf := 15, zn := 4, tr := 3, ws := 4, sf := 2, iv := 0, al := 0, wm := 0, up := 2,
      md := 0, lb := 0, mb := 0, dg := 0, ul := 1, ur := 1, ce := 1, lx := 0, tc := 1, ry := 1, ad := 1, ab := 1,
      bb := 1, ss := 16 } := by
  decide +kernel

/-- `71e qj600-l1 E=1 R+0>M |U:0 V:0 W:U>WL,U>WR>0 |LS:FN,J>LSA LS>R>LS |SS:S03.!E |A:1 B:1 Z:73c ` -/
theorem x71e (e : Env) (ex : Bool) (s : S) :
    exec e (ros 0x71e) ex s = .ok { s with
      R := s.LS (s.FN ++ s.J), M := s.R, alu := s.R, aob := s.R, u := 0#8, w := 0#8, EDST := 3#2, LSA := s.FN ++ s.J,
      St := { s.St with s3 := false }, ROAR := 0x73f } := by
  rw [w71e]; simp

/-- Word 73f. -/
theorem w73f : ros 0x73f = {
      lu := 0, mv := 0, zp := 1920, zf := 12, zn := 4, tr := 7, ws := 5, sf := 2, iv := 0, al := 0, wm := 14, up := 2,
      md := 0, lb := 0, mb := 0, dg := 0, ul := 1, ur := 1, ce := 0, lx := 1, tc := 1, ry := 1, ad := 1, ab := 1,
      bb := 0, ss := 0 } := by
  decide +kernel

/-- `73f qj600-g2 E=0 R+L>L |U:0 V:0 W:U>WL,U>WR>WR>F |LS:FN,J|1>LSA LS>R>LS |A:1 B:0 Z:7b0 ` -/
theorem x73f (e : Env) (ex : Bool) (s : S) :
    exec e (ros 0x73f) ex s = .ok { s with
      R := s.LS (s.FN ++ (s.J ||| 1#4)), L := s.L + s.R, alu := s.L + s.R, aob := s.L + s.R, u := 0#8, w := 0#8,
      F := 0#8, EDST := 3#2, LSA := s.FN ++ (s.J ||| 1#4), ROAR := 0x7b2 } := by
  rw [w73f]; simp

/-- Word 7b2. -/
theorem w7b2 : ros 0x7b2 = {
      lu := 0, mv := 0, zp := 1920, zf := 0, zn := 4, tr := 0, ws := 6, sf := 4, iv := 0, al := 9, wm := 0, up := 2,
      md := 0, lb := 0, mb := 0, dg := 2, ul := 1, ur := 1, ce := 0, lx := 1, tc := 0, ry := 1, ad := 5, ab := 5,
      bb := 30, ss := 0 } := by
  decide +kernel

/-- `7b2 qj600-g3 E=0 R-L>T AD:BC^C AL:F>SL1>F |U:0 V:0 W:U>WL,U>WR>0 |LS:FN,MD>LSA L>LS |DG:HOT1>ADDR |A:S3 B:(CAR) Z:780 ` -/
theorem x7b2 (e : Env) (ex : Bool) (s : S) :
    exec e (ros 0x7b2) ex s = .ok { s with
      alu := ~~~s.L + s.R + 1#32, aob := ~~~s.L <<< 1 + s.R <<< 1 + 2#32 ||| bitW (s.F &&& 8#8 != 0#8), u := 0#8,
      w := 0#8, F := (BitVec.setWidth 8 ((~~~s.L + s.R + 1#32) >>> 31) ||| s.F <<< 1) &&& 15#8, EDST := 3#2,
      LSA := s.FN ++ s.MD,
      ROAR := (1920 ||| 2 * s.St.s3.toNat) / 4 * 4 ||| 2 * s.St.s3.toNat + (BitVec.msb (carriesOf (~~~s.L) s.R (~~~s.L + s.R + 1#32)) ^^ BitVec.getMsbD (carriesOf (~~~s.L) s.R (~~~s.L + s.R + 1#32)) 1).toNat,
      LS := lsPut s.LS (s.FN ++ s.MD) s.L } := by
  rw [w7b2]; simp

/-- Word 780. -/
theorem w780 : ros 0x780 = {
      lu := 0, mv := 0, zp := 1792, zf := 4, zn := 4, tr := 1, ws := 4, sf := 7, iv := 0, al := 0, wm := 0, up := 2,
      md := 0, lb := 0, mb := 0, dg := 0, ul := 1, ur := 1, ce := 0, lx := 0, tc := 1, ry := 2, ad := 1, ab := 32,
      bb := 1, ss := 0 } := by
  decide +kernel

/-- `780 qj600-a4 E=0 M+0>R |U:0 V:0 W:U>WL,U>WR>0 |LS:FN,J>LSA 7 |A:F=0 B:1 Z:710 ` -/
theorem x780 (e : Env) (ex : Bool) (s : S) :
    exec e (ros 0x780) ex s = .ok { s with
      R := s.M, alu := s.M, aob := s.M, u := 0#8, w := 0#8, EDST := 3#2, LSA := s.FN ++ s.J,
      ROAR := 1808 ||| 2 * (s.F == 0#8).toNat + 1 } := by
  rw [w780]; simp

/-- Word 781. -/
theorem w781 : ros 0x781 = {
      lu := 0, mv := 0, zp := 1792, zf := 5, zn := 4, tr := 1, ws := 4, sf := 7, iv := 0, al := 0, wm := 0, up := 2,
      md := 0, lb := 0, mb := 0, dg := 0, ul := 1, ur := 1, ce := 0, lx := 0, tc := 1, ry := 2, ad := 1, ab := 32,
      bb := 1, ss := 0 } := by
  decide +kernel

/-- `781 qj600-l4 E=0 M+0>R |U:0 V:0 W:U>WL,U>WR>0 |LS:FN,J>LSA 7 |A:F=0 B:1 Z:714 ` -/
theorem x781 (e : Env) (ex : Bool) (s : S) :
    exec e (ros 0x781) ex s = .ok { s with
      R := s.M, alu := s.M, aob := s.M, u := 0#8, w := 0#8, EDST := 3#2, LSA := s.FN ++ s.J,
      ROAR := 1812 ||| 2 * (s.F == 0#8).toNat + 1 } := by
  rw [w781]; simp

/-- Word 782. -/
theorem w782 : ros 0x782 = {
      lu := 0, mv := 0, zp := 1792, zf := 5, zn := 4, tr := 1, ws := 4, sf := 7, iv := 0, al := 0, wm := 0, up := 2,
      md := 0, lb := 0, mb := 0, dg := 0, ul := 1, ur := 1, ce := 0, lx := 0, tc := 1, ry := 2, ad := 1, ab := 32,
      bb := 1, ss := 0 } := by
  decide +kernel

/-- `782 qj600-q4 E=0 M+0>R |U:0 V:0 W:U>WL,U>WR>0 |LS:FN,J>LSA 7 |A:F=0 B:1 Z:714 ` -/
theorem x782 (e : Env) (ex : Bool) (s : S) :
    exec e (ros 0x782) ex s = .ok { s with
      R := s.M, alu := s.M, aob := s.M, u := 0#8, w := 0#8, EDST := 3#2, LSA := s.FN ++ s.J,
      ROAR := 1812 ||| 2 * (s.F == 0#8).toNat + 1 } := by
  rw [w782]; simp

/-- Word 783. -/
theorem w783 : ros 0x783 = {
      lu := 0, mv := 0, zp := 1792, zf := 4, zn := 4, tr := 1, ws := 4, sf := 7, iv := 0, al := 0, wm := 0, up := 2,
      md := 0, lb := 0, mb := 0, dg := 0, ul := 1, ur := 1, ce := 0, lx := 0, tc := 1, ry := 2, ad := 1, ab := 32,
      bb := 1, ss := 0 } := by
  decide +kernel

/-- `783 qj600-e4 E=0 M+0>R |U:0 V:0 W:U>WL,U>WR>0 |LS:FN,J>LSA 7 |A:F=0 B:1 Z:710 ` -/
theorem x783 (e : Env) (ex : Bool) (s : S) :
    exec e (ros 0x783) ex s = .ok { s with
      R := s.M, alu := s.M, aob := s.M, u := 0#8, w := 0#8, EDST := 3#2, LSA := s.FN ++ s.J,
      ROAR := 1808 ||| 2 * (s.F == 0#8).toNat + 1 } := by
  rw [w783]; simp

/-- Word 711. -/
theorem w711 : ros 0x711 = {
      lu := 0, mv := 0, zp := 320, zf := 2, zn := 4, tr := 0, ws := 3, sf := 6, iv := 7, al := 0, wm := 0, up := 2,
      md := 0, lb := 0, mb := 0, dg := 0, ul := 1, ur := 1, ce := 14, lx := 0, tc := 1, ry := 0, ad := 1, ab := 56,
      bb := 0, ss := 24 } := by
  decide +kernel

/-- `711 qj600-a6 E=e 0+0>T |U:0 V:0 W:U>WL,U>WR>0 |LS:WS,E>LSA LS>L>LS |IV:IA+0/2>A |SS:E>S47 |A:I-FETCH B:0 Z:148 ` -/
theorem x711 (e : Env) (ex : Bool) (s : S) :
    exec e (ros 0x711) ex s = .ok { s with
      L := s.LS 30#6, SAR := ifAddr s.REFETCH s.IA, alu := 0#32, aob := 0#32, u := 0#8, w := 0#8, EDST := 3#2,
      LSA := 30#6, St := { s.St with s4 := true, s5 := true, s6 := true, s7 := false },
      IVA := s.IVA || decide (e.memMax < ifAddr s.REFETCH s.IA),
      initMem := s.initMem || !decide (e.memMax < ifAddr s.REFETCH s.IA),
      ROAR := 328 ||| 2 * (ex || s.IA &&& 2#32 == 0#32).toNat + (ex || s.IA &&& 2#32 != 0#32 && s.REFETCH).toNat } := by
  rw [w711]; simp

/-- Word 713. -/
theorem w713 : ros 0x713 = {
      lu := 0, mv := 0, zp := 256, zf := 0, zn := 4, tr := 9, ws := 4, sf := 7, iv := 0, al := 0, wm := 0, up := 2,
      md := 0, lb := 0, mb := 0, dg := 0, ul := 1, ur := 1, ce := 15, lx := 0, tc := 1, ry := 1, ad := 1, ab := 1,
      bb := 12, ss := 18 } := by
  decide +kernel

/-- `713 qj600-e6 E=f R+0>R,AN |U:0 V:0 W:U>WL,U>WR>0 |LS:FN,J>LSA 7 |SS:E->BS,T30->S3 |A:1 B:EXC Z:100 ` -/
theorem x713 (e : Env) (ex : Bool) (s : S) :
    exec e (ros 0x713) ex s = .ok { s with
      SAR := s.R &&& 16777215#32, alu := s.R, aob := s.R, u := 0#8, w := 0#8, BS := 15#4, EDST := 3#2,
      LSA := s.FN ++ s.J, St := { s.St with s3 := s.R &&& 2#32 != 0#32 },
      IVA := s.IVA || decide (e.memMax < s.R &&& 16777215#32),
      initMem := s.initMem || !decide (e.memMax < s.R &&& 16777215#32), ROAR := 256 ||| 2 + ex.toNat } := by
  rw [w713]; simp

/-- Word 715. -/
theorem w715 : ros 0x715 = {
      lu := 0, mv := 0, zp := 256, zf := 0, zn := 4, tr := 9, ws := 4, sf := 7, iv := 0, al := 0, wm := 0, up := 2,
      md := 0, lb := 0, mb := 0, dg := 0, ul := 1, ur := 1, ce := 15, lx := 0, tc := 1, ry := 1, ad := 1, ab := 1,
      bb := 12, ss := 18 } := by
  decide +kernel

/-- `715 qj600-q6 E=f R+0>R,AN |U:0 V:0 W:U>WL,U>WR>0 |LS:FN,J>LSA 7 |SS:E->BS,T30->S3 |A:1 B:EXC Z:100 ` -/
theorem x715 (e : Env) (ex : Bool) (s : S) :
    exec e (ros 0x715) ex s = .ok { s with
      SAR := s.R &&& 16777215#32, alu := s.R, aob := s.R, u := 0#8, w := 0#8, BS := 15#4, EDST := 3#2,
      LSA := s.FN ++ s.J, St := { s.St with s3 := s.R &&& 2#32 != 0#32 },
      IVA := s.IVA || decide (e.memMax < s.R &&& 16777215#32),
      initMem := s.initMem || !decide (e.memMax < s.R &&& 16777215#32), ROAR := 256 ||| 2 + ex.toNat } := by
  rw [w715]; simp

/-- Word 717. -/
theorem w717 : ros 0x717 = {
      lu := 0, mv := 0, zp := 320, zf := 2, zn := 4, tr := 0, ws := 3, sf := 6, iv := 7, al := 0, wm := 0, up := 2,
      md := 0, lb := 0, mb := 0, dg := 0, ul := 1, ur := 1, ce := 14, lx := 0, tc := 1, ry := 0, ad := 1, ab := 56,
      bb := 0, ss := 24 } := by
  decide +kernel

/-- `717 qj600-l6 E=e 0+0>T |U:0 V:0 W:U>WL,U>WR>0 |LS:WS,E>LSA LS>L>LS |IV:IA+0/2>A |SS:E>S47 |A:I-FETCH B:0 Z:148 ` -/
theorem x717 (e : Env) (ex : Bool) (s : S) :
    exec e (ros 0x717) ex s = .ok { s with
      L := s.LS 30#6, SAR := ifAddr s.REFETCH s.IA, alu := 0#32, aob := 0#32, u := 0#8, w := 0#8, EDST := 3#2,
      LSA := 30#6, St := { s.St with s4 := true, s5 := true, s6 := true, s7 := false },
      IVA := s.IVA || decide (e.memMax < ifAddr s.REFETCH s.IA),
      initMem := s.initMem || !decide (e.memMax < ifAddr s.REFETCH s.IA),
      ROAR := 328 ||| 2 * (ex || s.IA &&& 2#32 == 0#32).toNat + (ex || s.IA &&& 2#32 != 0#32 && s.REFETCH).toNat } := by
  rw [w717]; simp

/-- Word 722. -/
theorem w722 : ros 0x722 = {
      lu := 2, mv := 0, zp := 1920, zf := 11, zn := 4, tr := 1, ws := 4, sf := 7, iv := 0, al := 13, wm := 3, up := 0,
      md := 0, lb := 0, mb := 1, dg := 0, ul := 1, ur := 1, ce := 0, lx := 0, tc := 1, ry := 1, ad := 1, ab := 1,
      bb := 0, ss := 0 } := by
  decide +kernel

/-- `722 qj080-e1 E=0 R+0>R AL:SR1>Q |U:R3>U V:0 W:U>WL,U>WR>W67>LB |LS:FN,J>LSA 7 |CNTmb=0 |A:1 B:0 Z:7ac ` -/
theorem x722 (e : Env) (ex : Bool) (s : S) :
    exec e (ros 0x722) ex s = .ok { s with
      R := s.R >>> 1, alu := s.R, aob := s.R >>> 1, u := BitVec.setWidth 8 s.R, w := BitVec.setWidth 8 s.R, MB := 0#2,
      LB := BitVec.setWidth 2 s.R, EDST := 3#2, LSA := s.FN ++ s.J, Q := s.R &&& 1#32 != 0#32, ROAR := 0x7ae } := by
  rw [w722]; simp

/-- Word 7ae. -/
theorem w7ae : ros 0x7ae = {
      lu := 0, mv := 0, zp := 1920, zf := 12, zn := 4, tr := 1, ws := 4, sf := 7, iv := 0, al := 13, wm := 0, up := 2,
      md := 0, lb := 1, mb := 0, dg := 0, ul := 1, ur := 1, ce := 0, lx := 0, tc := 1, ry := 1, ad := 1, ab := 0,
      bb := 20, ss := 0 } := by
  decide +kernel

/-- `7ae qj080-e2 E=0 R+0>R AL:SR1>Q |U:0 V:0 W:U>WL,U>WR>0 |LS:FN,J>LSA 7 |CNTlb- |A:0 B:LB=0 Z:7b0 ` -/
theorem x7ae (e : Env) (ex : Bool) (s : S) :
    exec e (ros 0x7ae) ex s = .ok { s with
      R := s.R >>> 1, alu := s.R, aob := s.R >>> 1, u := 0#8, w := 0#8, LB := s.LB - 1#2, EDST := 3#2,
      LSA := s.FN ++ s.J, Q := s.R &&& 1#32 != 0#32, ROAR := 1968 ||| (s.LB == 0#2).toNat } := by
  rw [w7ae]; simp

/-- Word 7b0. -/
theorem w7b0 : ros 0x7b0 = {
      lu := 2, mv := 0, zp := 1920, zf := 11, zn := 4, tr := 1, ws := 4, sf := 7, iv := 0, al := 13, wm := 11, up := 2,
      md := 0, lb := 1, mb := 0, dg := 0, ul := 2, ur := 1, ce := 0, lx := 1, tc := 1, ry := 0, ad := 1, ab := 0,
      bb := 20, ss := 0 } := by
  decide +kernel

/-- `7b0 qj080-j3 E=0 0+L>R AL:SR1>Q |U:R3>U V:0 W:V>WL,U>WR>W>G |LS:FN,J>LSA 7 |CNTlb- |A:0 B:LB=0 Z:7ac ` -/
theorem x7b0 (e : Env) (ex : Bool) (s : S) :
    exec e (ros 0x7b0) ex s = .ok { s with
      R := s.L >>> 1, alu := s.L, aob := s.L >>> 1, u := BitVec.setWidth 8 s.R, w := BitVec.setWidth 8 s.R &&& 15#8,
      G := BitVec.setWidth 8 s.R &&& 15#8, LB := s.LB - 1#2, EDST := 3#2, LSA := s.FN ++ s.J,
      Q := s.L &&& 1#32 != 0#32, G1NEG := false, G2NEG := false, ROAR := 1964 ||| (s.LB == 0#2).toNat } := by
  rw [w7b0]; simp

/-- Word 7b1. -/
theorem w7b1 : ros 0x7b1 = {
      lu := 2, mv := 0, zp := 1920, zf := 11, zn := 4, tr := 1, ws := 4, sf := 7, iv := 0, al := 0, wm := 11, up := 2,
      md := 0, lb := 0, mb := 0, dg := 0, ul := 2, ur := 1, ce := 0, lx := 1, tc := 1, ry := 0, ad := 1, ab := 0,
      bb := 1, ss := 0 } := by
  decide +kernel

/-- `7b1 qj080-c3 E=0 0+L>R |U:R3>U V:0 W:V>WL,U>WR>W>G |LS:FN,J>LSA 7 |A:0 B:1 Z:7ac ` -/
theorem x7b1 (e : Env) (ex : Bool) (s : S) :
    exec e (ros 0x7b1) ex s = .ok { s with
      R := s.L, alu := s.L, aob := s.L, u := BitVec.setWidth 8 s.R, w := BitVec.setWidth 8 s.R &&& 15#8,
      G := BitVec.setWidth 8 s.R &&& 15#8, EDST := 3#2, LSA := s.FN ++ s.J, G1NEG := false, G2NEG := false,
      ROAR := 0x7ad } := by
  rw [w7b1]; simp

/-- Word 7ac. -/
theorem w7ac : ros 0x7ac = {
      lu := 0, mv := 0, zp := 1920, zf := 11, zn := 4, tr := 1, ws := 4, sf := 7, iv := 0, al := 13, wm := 0, up := 2,
      md := 0, lb := 1, mb := 0, dg := 0, ul := 1, ur := 1, ce := 0, lx := 0, tc := 1, ry := 1, ad := 1, ab := 0,
      bb := 20, ss := 0 } := by
  decide +kernel

/-- `7ac qj080-j4 E=0 R+0>R AL:SR1>Q |U:0 V:0 W:U>WL,U>WR>0 |LS:FN,J>LSA 7 |CNTlb- |A:0 B:LB=0 Z:7ac ` -/
theorem x7ac (e : Env) (ex : Bool) (s : S) :
    exec e (ros 0x7ac) ex s = .ok { s with
      R := s.R >>> 1, alu := s.R, aob := s.R >>> 1, u := 0#8, w := 0#8, LB := s.LB - 1#2, EDST := 3#2,
      LSA := s.FN ++ s.J, Q := s.R &&& 1#32 != 0#32, ROAR := 1964 ||| (s.LB == 0#2).toNat } := by
  rw [w7ac]; simp

/-- Word 7ad. -/
theorem w7ad : ros 0x7ad = {
      lu := 0, mv := 0, zp := 1920, zf := 11, zn := 4, tr := 1, ws := 3, sf := 6, iv := 0, al := 20, wm := 0, up := 2,
      md := 0, lb := 0, mb := 0, dg := 6, ul := 1, ur := 1, ce := 14, lx := 0, tc := 1, ry := 1, ad := 1, ab := 39,
      bb := 1, ss := 24 } := by
  decide +kernel

/-- `7ad qj080-e7 E=e R+0>R AL:SR4>F |U:0 V:0 W:U>WL,U>WR>0 |LS:WS,E>LSA LS>L>LS |DG:G-1 |SS:E>S47 |A:GZ/MB3 B:1 Z:7ac ` -/
theorem x7ad (e : Env) (ex : Bool) (s : S) :
    exec e (ros 0x7ad) ex s = .ok { s with
      R := s.R >>> 4, L := s.LS 30#6, alu := s.R, aob := s.R >>> 4, u := 0#8, w := 0#8, F := loDig s.R, G := s.G - 1#8,
      EDST := 3#2, LSA := 30#6, St := { s.St with s4 := true, s5 := true, s6 := true, s7 := false },
      G1NEG := s.G1NEG || s.G == 0#8, G2NEG := s.G2NEG || s.G &&& 15#8 == 0#8,
      ROAR := 1964 ||| 2 * (s.G == 0#8 || s.MB == 3#2).toNat + 1 } := by
  rw [w7ad]; simp

/-- Word 7af. -/
theorem w7af : ros 0x7af = {
      lu := 0, mv := 0, zp := 320, zf := 2, zn := 4, tr := 1, ws := 6, sf := 0, iv := 7, al := 17, wm := 0, up := 2,
      md := 0, lb := 0, mb := 0, dg := 0, ul := 1, ur := 1, ce := 0, lx := 0, tc := 1, ry := 1, ad := 1, ab := 56,
      bb := 0, ss := 0 } := by
  decide +kernel

/-- `7af qj080-j7 E=0 R+0>R AL:F>SL4>F |U:0 V:0 W:U>WL,U>WR>0 |LS:FN,MD>LSA R>LS |IV:IA+0/2>A |A:I-FETCH B:0 Z:148 ` -/
theorem x7af (e : Env) (ex : Bool) (s : S) :
    exec e (ros 0x7af) ex s = .ok { s with
      R := s.R <<< 4 ||| BitVec.setWidth 32 s.F &&& 15#32, SAR := ifAddr s.REFETCH s.IA, alu := s.R,
      aob := s.R <<< 4 ||| BitVec.setWidth 32 s.F &&& 15#32, u := 0#8, w := 0#8, F := hiDig s.R, EDST := 3#2,
      LSA := s.FN ++ s.MD, IVA := s.IVA || decide (e.memMax < ifAddr s.REFETCH s.IA),
      initMem := s.initMem || !decide (e.memMax < ifAddr s.REFETCH s.IA),
      ROAR := 328 ||| 2 * (ex || s.IA &&& 2#32 == 0#32).toNat + (ex || s.IA &&& 2#32 != 0#32 && s.REFETCH).toNat,
      LS := lsPut s.LS (s.FN ++ s.MD) (s.R <<< 4 ||| BitVec.setWidth 32 s.F &&& 15#32) } := by
  rw [w7af]; simp

/-- Word 726. -/
theorem w726 : ros 0x726 = {
      lu := 2, mv := 0, zp := 2240, zf := 4, zn := 4, tr := 1, ws := 4, sf := 7, iv := 0, al := 13, wm := 3, up := 0,
      md := 0, lb := 0, mb := 1, dg := 0, ul := 1, ur := 1, ce := 0, lx := 0, tc := 1, ry := 1, ad := 1, ab := 1,
      bb := 0, ss := 0 } := by
  decide +kernel

/-- `726 qj090-g1 E=0 R+0>R AL:SR1>Q |U:R3>U V:0 W:U>WL,U>WR>W67>LB |LS:FN,J>LSA 7 |CNTmb=0 |A:1 B:0 Z:8d0 ` -/
theorem x726 (e : Env) (ex : Bool) (s : S) :
    exec e (ros 0x726) ex s = .ok { s with
      R := s.R >>> 1, alu := s.R, aob := s.R >>> 1, u := BitVec.setWidth 8 s.R, w := BitVec.setWidth 8 s.R, MB := 0#2,
      LB := BitVec.setWidth 2 s.R, EDST := 3#2, LSA := s.FN ++ s.J, Q := s.R &&& 1#32 != 0#32, ROAR := 0x8d2 } := by
  rw [w726]; simp

/-- Word 8d2. -/
theorem w8d2 : ros 0x8d2 = {
      lu := 0, mv := 0, zp := 2240, zf := 5, zn := 4, tr := 1, ws := 4, sf := 7, iv := 0, al := 13, wm := 0, up := 2,
      md := 0, lb := 1, mb := 0, dg := 0, ul := 1, ur := 1, ce := 0, lx := 0, tc := 1, ry := 1, ad := 1, ab := 0,
      bb := 20, ss := 0 } := by
  decide +kernel

/-- `8d2 qj090-g2 E=0 R+0>R AL:SR1>Q |U:0 V:0 W:U>WL,U>WR>0 |LS:FN,J>LSA 7 |CNTlb- |A:0 B:LB=0 Z:8d4 ` -/
theorem x8d2 (e : Env) (ex : Bool) (s : S) :
    exec e (ros 0x8d2) ex s = .ok { s with
      R := s.R >>> 1, alu := s.R, aob := s.R >>> 1, u := 0#8, w := 0#8, LB := s.LB - 1#2, EDST := 3#2,
      LSA := s.FN ++ s.J, Q := s.R &&& 1#32 != 0#32, ROAR := 2260 ||| (s.LB == 0#2).toNat } := by
  rw [w8d2]; simp

/-- Word 8d4. -/
theorem w8d4 : ros 0x8d4 = {
      lu := 2, mv := 0, zp := 2240, zf := 4, zn := 4, tr := 1, ws := 4, sf := 7, iv := 0, al := 10, wm := 11, up := 2,
      md := 0, lb := 1, mb := 0, dg := 0, ul := 2, ur := 1, ce := 0, lx := 1, tc := 1, ry := 0, ad := 1, ab := 0,
      bb := 20, ss := 0 } := by
  decide +kernel

/-- `8d4 qj090-j3 E=0 0+L>R AL:SL1>Q |U:R3>U V:0 W:V>WL,U>WR>W>G |LS:FN,J>LSA 7 |CNTlb- |A:0 B:LB=0 Z:8d0 ` -/
theorem x8d4 (e : Env) (ex : Bool) (s : S) :
    exec e (ros 0x8d4) ex s = .ok { s with
      R := s.L <<< 1, alu := s.L, aob := s.L <<< 1, u := BitVec.setWidth 8 s.R, w := BitVec.setWidth 8 s.R &&& 15#8,
      G := BitVec.setWidth 8 s.R &&& 15#8, LB := s.LB - 1#2, EDST := 3#2, LSA := s.FN ++ s.J, Q := BitVec.msb s.L,
      G1NEG := false, G2NEG := false, ROAR := 2256 ||| (s.LB == 0#2).toNat } := by
  rw [w8d4]; simp

/-- Word 8d5. -/
theorem w8d5 : ros 0x8d5 = {
      lu := 2, mv := 0, zp := 2240, zf := 4, zn := 4, tr := 1, ws := 4, sf := 7, iv := 0, al := 0, wm := 11, up := 2,
      md := 0, lb := 0, mb := 0, dg := 0, ul := 2, ur := 1, ce := 0, lx := 1, tc := 1, ry := 0, ad := 1, ab := 0,
      bb := 1, ss := 0 } := by
  decide +kernel

/-- `8d5 qj090-c3 E=0 0+L>R |U:R3>U V:0 W:V>WL,U>WR>W>G |LS:FN,J>LSA 7 |A:0 B:1 Z:8d0 ` -/
theorem x8d5 (e : Env) (ex : Bool) (s : S) :
    exec e (ros 0x8d5) ex s = .ok { s with
      R := s.L, alu := s.L, aob := s.L, u := BitVec.setWidth 8 s.R, w := BitVec.setWidth 8 s.R &&& 15#8,
      G := BitVec.setWidth 8 s.R &&& 15#8, EDST := 3#2, LSA := s.FN ++ s.J, G1NEG := false, G2NEG := false,
      ROAR := 0x8d1 } := by
  rw [w8d5]; simp

/-- Word 8d0. -/
theorem w8d0 : ros 0x8d0 = {
      lu := 0, mv := 0, zp := 2240, zf := 4, zn := 4, tr := 1, ws := 4, sf := 7, iv := 0, al := 10, wm := 0, up := 2,
      md := 0, lb := 1, mb := 0, dg := 0, ul := 1, ur := 1, ce := 0, lx := 0, tc := 1, ry := 1, ad := 1, ab := 0,
      bb := 20, ss := 0 } := by
  decide +kernel

/-- `8d0 qj090-n4 E=0 R+0>R AL:SL1>Q |U:0 V:0 W:U>WL,U>WR>0 |LS:FN,J>LSA 7 |CNTlb- |A:0 B:LB=0 Z:8d0 ` -/
theorem x8d0 (e : Env) (ex : Bool) (s : S) :
    exec e (ros 0x8d0) ex s = .ok { s with
      R := s.R <<< 1, alu := s.R, aob := s.R <<< 1, u := 0#8, w := 0#8, LB := s.LB - 1#2, EDST := 3#2,
      LSA := s.FN ++ s.J, Q := BitVec.msb s.R, ROAR := 2256 ||| (s.LB == 0#2).toNat } := by
  rw [w8d0]; simp

/-- Word 8d1. -/
theorem w8d1 : ros 0x8d1 = {
      lu := 0, mv := 0, zp := 2240, zf := 4, zn := 4, tr := 1, ws := 3, sf := 6, iv := 0, al := 16, wm := 0, up := 2,
      md := 0, lb := 0, mb := 0, dg := 6, ul := 1, ur := 1, ce := 14, lx := 0, tc := 1, ry := 1, ad := 1, ab := 39,
      bb := 1, ss := 24 } := by
  decide +kernel

/-- `8d1 qj090-n7 E=e R+0>R AL:SL4>F |U:0 V:0 W:U>WL,U>WR>0 |LS:WS,E>LSA LS>L>LS |DG:G-1 |SS:E>S47 |A:GZ/MB3 B:1 Z:8d0 ` -/
theorem x8d1 (e : Env) (ex : Bool) (s : S) :
    exec e (ros 0x8d1) ex s = .ok { s with
      R := s.R <<< 4, L := s.LS 30#6, alu := s.R, aob := s.R <<< 4, u := 0#8, w := 0#8, F := hiDig s.R, G := s.G - 1#8,
      EDST := 3#2, LSA := 30#6, St := { s.St with s4 := true, s5 := true, s6 := true, s7 := false },
      G1NEG := s.G1NEG || s.G == 0#8, G2NEG := s.G2NEG || s.G &&& 15#8 == 0#8,
      ROAR := 2256 ||| 2 * (s.G == 0#8 || s.MB == 3#2).toNat + 1 } := by
  rw [w8d1]; simp

/-- Word 8d3. -/
theorem w8d3 : ros 0x8d3 = {
      lu := 0, mv := 0, zp := 320, zf := 2, zn := 4, tr := 1, ws := 6, sf := 0, iv := 7, al := 21, wm := 0, up := 2,
      md := 0, lb := 0, mb := 0, dg := 0, ul := 1, ur := 1, ce := 0, lx := 0, tc := 1, ry := 1, ad := 1, ab := 56,
      bb := 0, ss := 0 } := by
  decide +kernel

/-- `8d3 qj090-e7 E=0 R+0>R AL:F>SR4>F |U:0 V:0 W:U>WL,U>WR>0 |LS:FN,MD>LSA R>LS |IV:IA+0/2>A |A:I-FETCH B:0 Z:148 ` -/
theorem x8d3 (e : Env) (ex : Bool) (s : S) :
    exec e (ros 0x8d3) ex s = .ok { s with
      R := s.R >>> 4 ||| (BitVec.setWidth 32 s.F &&& 15#32) <<< 28, SAR := ifAddr s.REFETCH s.IA, alu := s.R,
      aob := s.R >>> 4 ||| (BitVec.setWidth 32 s.F &&& 15#32) <<< 28, u := 0#8, w := 0#8, F := loDig s.R, EDST := 3#2,
      LSA := s.FN ++ s.MD, IVA := s.IVA || decide (e.memMax < ifAddr s.REFETCH s.IA),
      initMem := s.initMem || !decide (e.memMax < ifAddr s.REFETCH s.IA),
      ROAR := 328 ||| 2 * (ex || s.IA &&& 2#32 == 0#32).toNat + (ex || s.IA &&& 2#32 != 0#32 && s.REFETCH).toNat,
      LS := lsPut s.LS (s.FN ++ s.MD) (s.R >>> 4 ||| (BitVec.setWidth 32 s.F &&& 15#32) <<< 28) } := by
  rw [w8d3]; simp

/-- Word 72a. -/
theorem w72a : ros 0x72a = {
      lu := 2, mv := 0, zp := 2176, zf := 10, zn := 4, tr := 1, ws := 4, sf := 7, iv := 0, al := 13, wm := 3, up := 2,
      md := 0, lb := 0, mb := 0, dg := 0, ul := 1, ur := 1, ce := 0, lx := 0, tc := 1, ry := 1, ad := 1, ab := 31,
      bb := 0, ss := 36 } := by
  decide +kernel

/-- `72a qj100-e1 E=0 R+0>R AL:SR1>Q |U:R3>U V:0 W:U>WL,U>WR>W67>LB |LS:FN,J>LSA 7 |SS:L(0)->LSGNS |A:L(0) B:0 Z:8a8 ` -/
theorem x72a (e : Env) (ex : Bool) (s : S) :
    exec e (ros 0x72a) ex s = .ok { s with
      R := s.R >>> 1, alu := s.R, aob := s.R >>> 1, u := BitVec.setWidth 8 s.R, w := BitVec.setWidth 8 s.R,
      LB := BitVec.setWidth 2 s.R, EDST := 3#2, LSA := s.FN ++ s.J, Q := s.R &&& 1#32 != 0#32, LSGNS := BitVec.msb s.L,
      ROAR := 2216 ||| 2 * (BitVec.msb s.L).toNat } := by
  rw [w72a]; simp

/-- Word 8a8. -/
theorem w8a8 : ros 0x8a8 = {
      lu := 0, mv := 0, zp := 2176, zf := 9, zn := 4, tr := 1, ws := 4, sf := 7, iv := 0, al := 13, wm := 14, up := 2,
      md := 0, lb := 1, mb := 0, dg := 0, ul := 1, ur := 1, ce := 0, lx := 0, tc := 1, ry := 1, ad := 1, ab := 1,
      bb := 20, ss := 0 } := by
  decide +kernel

/-- `8a8 qj100-j3 E=0 R+0>R AL:SR1>Q |U:0 V:0 W:U>WL,U>WR>WR>F |LS:FN,J>LSA 7 |CNTlb- |A:1 B:LB=0 Z:8a4 ` -/
theorem x8a8 (e : Env) (ex : Bool) (s : S) :
    exec e (ros 0x8a8) ex s = .ok { s with
      R := s.R >>> 1, alu := s.R, aob := s.R >>> 1, u := 0#8, w := 0#8, F := 0#8, LB := s.LB - 1#2, EDST := 3#2,
      LSA := s.FN ++ s.J, Q := s.R &&& 1#32 != 0#32, ROAR := 2212 ||| 2 + (s.LB == 0#2).toNat } := by
  rw [w8a8]; simp

/-- Word 8aa. -/
theorem w8aa : ros 0x8aa = {
      lu := 0, mv := 0, zp := 2176, zf := 9, zn := 4, tr := 1, ws := 4, sf := 7, iv := 0, al := 13, wm := 14, up := 2,
      md := 0, lb := 1, mb := 0, dg := 0, ul := 1, ur := 0, ce := 15, lx := 0, tc := 1, ry := 1, ad := 1, ab := 1,
      bb := 20, ss := 0 } := by
  decide +kernel

/-- `8aa qj100-c3 E=f R+0>R AL:SR1>Q |U:0 V:0 W:U>WL,E>WR>WR>F |LS:FN,J>LSA 7 |CNTlb- |A:1 B:LB=0 Z:8a4 ` -/
theorem x8aa (e : Env) (ex : Bool) (s : S) :
    exec e (ros 0x8aa) ex s = .ok { s with
      R := s.R >>> 1, alu := s.R, aob := s.R >>> 1, u := 0#8, w := 15#8, F := 15#8, LB := s.LB - 1#2, EDST := 3#2,
      LSA := s.FN ++ s.J, Q := s.R &&& 1#32 != 0#32, ROAR := 2212 ||| 2 + (s.LB == 0#2).toNat } := by
  rw [w8aa]; simp

/-- Word 8a6. -/
theorem w8a6 : ros 0x8a6 = {
      lu := 2, mv := 0, zp := 2176, zf := 9, zn := 4, tr := 7, ws := 4, sf := 7, iv := 0, al := 27, wm := 10, up := 2,
      md := 0, lb := 1, mb := 0, dg := 0, ul := 1, ur := 1, ce := 0, lx := 1, tc := 1, ry := 0, ad := 1, ab := 0,
      bb := 20, ss := 0 } := by
  decide +kernel

/-- `8a6 qj100-e4 E=0 0+L>L AL:F>SR1>Q |U:R3>U V:0 W:U>WL,U>WR>WL>G2 |LS:FN,J>LSA 7 |CNTlb- |A:0 B:LB=0 Z:8a4 ` -/
theorem x8a6 (e : Env) (ex : Bool) (s : S) :
    exec e (ros 0x8a6) ex s = .ok { s with
      L := s.L >>> 1 ||| (BitVec.setWidth 32 s.F &&& 1#32) <<< 31, alu := s.L,
      aob := s.L >>> 1 ||| (BitVec.setWidth 32 s.F &&& 1#32) <<< 31, u := BitVec.setWidth 8 s.R,
      w := BitVec.setWidth 8 s.R, G := s.G &&& 240#8 ||| BitVec.setWidth 8 s.R &&& 15#8, LB := s.LB - 1#2, EDST := 3#2,
      LSA := s.FN ++ s.J, Q := s.L &&& 1#32 != 0#32, G2NEG := false, ROAR := 2212 ||| (s.LB == 0#2).toNat } := by
  rw [w8a6]; simp

/-- Word 8a7. -/
theorem w8a7 : ros 0x8a7 = {
      lu := 2, mv := 0, zp := 2176, zf := 9, zn := 4, tr := 0, ws := 4, sf := 7, iv := 0, al := 0, wm := 10, up := 2,
      md := 0, lb := 0, mb := 0, dg := 0, ul := 1, ur := 1, ce := 0, lx := 0, tc := 1, ry := 0, ad := 1, ab := 0,
      bb := 1, ss := 0 } := by
  decide +kernel

/-- `8a7 qj100-l4 E=0 0+0>T |U:R3>U V:0 W:U>WL,U>WR>WL>G2 |LS:FN,J>LSA 7 |A:0 B:1 Z:8a4 ` -/
theorem x8a7 (e : Env) (ex : Bool) (s : S) :
    exec e (ros 0x8a7) ex s = .ok { s with
      alu := 0#32, aob := 0#32, u := BitVec.setWidth 8 s.R, w := BitVec.setWidth 8 s.R,
      G := s.G &&& 240#8 ||| BitVec.setWidth 8 s.R &&& 15#8, EDST := 3#2, LSA := s.FN ++ s.J, G2NEG := false,
      ROAR := 0x8a5 } := by
  rw [w8a7]; simp

/-- Word 8a4. -/
theorem w8a4 : ros 0x8a4 = {
      lu := 0, mv := 0, zp := 2176, zf := 9, zn := 4, tr := 7, ws := 4, sf := 7, iv := 0, al := 27, wm := 0, up := 2,
      md := 0, lb := 1, mb := 0, dg := 0, ul := 1, ur := 1, ce := 0, lx := 1, tc := 1, ry := 0, ad := 1, ab := 0,
      bb := 20, ss := 0 } := by
  decide +kernel

/-- `8a4 qj100-q4 E=0 0+L>L AL:F>SR1>Q |U:0 V:0 W:U>WL,U>WR>0 |LS:FN,J>LSA 7 |CNTlb- |A:0 B:LB=0 Z:8a4 ` -/
theorem x8a4 (e : Env) (ex : Bool) (s : S) :
    exec e (ros 0x8a4) ex s = .ok { s with
      L := s.L >>> 1 ||| (BitVec.setWidth 32 s.F &&& 1#32) <<< 31, alu := s.L,
      aob := s.L >>> 1 ||| (BitVec.setWidth 32 s.F &&& 1#32) <<< 31, u := 0#8, w := 0#8, LB := s.LB - 1#2, EDST := 3#2,
      LSA := s.FN ++ s.J, Q := s.L &&& 1#32 != 0#32, ROAR := 2212 ||| (s.LB == 0#2).toNat } := by
  rw [w8a4]; simp

/-- Word 8a5. -/
theorem w8a5 : ros 0x8a5 = {
      lu := 0, mv := 0, zp := 2176, zf := 0, zn := 3, tr := 0, ws := 6, sf := 4, iv := 0, al := 0, wm := 0, up := 2,
      md := 0, lb := 0, mb := 0, dg := 5, ul := 1, ur := 1, ce := 0, lx := 1, tc := 1, ry := 0, ad := 1, ab := 0,
      bb := 23, ss := 41 } := by
  decide +kernel

/-- `8a5 qj100-l5 E=0 0+L>T |U:0 V:0 W:U>WL,U>WR>0 |LS:FN,MD>LSA L>LS |DG:G2-1 |SS:SETCRALG |A:0 B:G2=0 Z:880 A|(B=1)>A` -/
theorem x8a5 (e : Env) (ex : Bool) (s : S) :
    exec e (ros 0x8a5) ex s = .ok { s with
      alu := s.L, aob := s.L, u := 0#8, w := 0#8, G := s.G &&& 240#8 ||| s.G - 1#8 &&& 15#8, EDST := 3#2,
      CC := if s.L = 0#32 then 0#2 else if BitVec.msb s.L = true then 1#2 else 2#2, LSA := s.FN ++ s.MD,
      G2NEG := s.G2NEG || s.G &&& 15#8 == 0#8,
      ROAR := 2176 ||| 2 * (s.G &&& 15#8 == 0#8).toNat + (s.G &&& 15#8 == 0#8).toNat,
      LS := lsPut s.LS (s.FN ++ s.MD) s.L } := by
  rw [w8a5]; simp

/-- Word 880. -/
theorem w880 : ros 0x880 = {
      lu := 0, mv := 0, zp := 2176, zf := 0, zn := 3, tr := 7, ws := 6, sf := 4, iv := 0, al := 25, wm := 0, up := 2,
      md := 0, lb := 0, mb := 0, dg := 5, ul := 1, ur := 1, ce := 0, lx := 1, tc := 1, ry := 0, ad := 1, ab := 0,
      bb := 23, ss := 41 } := by
  decide +kernel

/-- `880 qj100-j7 E=0 0+L>L AL:F>SR4 |U:0 V:0 W:U>WL,U>WR>0 |LS:FN,MD>LSA L>LS |DG:G2-1 |SS:SETCRALG |A:0 B:G2=0 Z:880 A|(B=1)>A` -/
theorem x880 (e : Env) (ex : Bool) (s : S) :
    exec e (ros 0x880) ex s = .ok { s with
      L := s.L >>> 4 ||| (BitVec.setWidth 32 s.F &&& 15#32) <<< 28, alu := s.L,
      aob := s.L >>> 4 ||| (BitVec.setWidth 32 s.F &&& 15#32) <<< 28, u := 0#8, w := 0#8,
      G := s.G &&& 240#8 ||| s.G - 1#8 &&& 15#8, EDST := 3#2,
      CC := if s.L >>> 4 = 0#32 ∧ (BitVec.setWidth 32 s.F &&& 15#32) <<< 28 = 0#32 then 0#2 else if BitVec.getMsbD s.F 4 = true then 1#2 else 2#2,
      LSA := s.FN ++ s.MD, G2NEG := s.G2NEG || s.G &&& 15#8 == 0#8,
      ROAR := 2176 ||| 2 * (s.G &&& 15#8 == 0#8).toNat + (s.G &&& 15#8 == 0#8).toNat,
      LS := lsPut s.LS (s.FN ++ s.MD) (s.L >>> 4 ||| (BitVec.setWidth 32 s.F &&& 15#32) <<< 28) } := by
  rw [w880]; simp

/-- Word 883. -/
theorem w883 : ros 0x883 = {
      lu := 0, mv := 0, zp := 320, zf := 2, zn := 4, tr := 0, ws := 3, sf := 6, iv := 7, al := 0, wm := 0, up := 2,
      md := 0, lb := 0, mb := 0, dg := 0, ul := 1, ur := 1, ce := 14, lx := 0, tc := 1, ry := 0, ad := 1, ab := 56,
      bb := 0, ss := 24 } := by
  decide +kernel

/-- `883 qj110-l8 E=e 0+0>T |U:0 V:0 W:U>WL,U>WR>0 |LS:WS,E>LSA LS>L>LS |IV:IA+0/2>A |SS:E>S47 |A:I-FETCH B:0 Z:148 ` -/
theorem x883 (e : Env) (ex : Bool) (s : S) :
    exec e (ros 0x883) ex s = .ok { s with
      L := s.LS 30#6, SAR := ifAddr s.REFETCH s.IA, alu := 0#32, aob := 0#32, u := 0#8, w := 0#8, EDST := 3#2,
      LSA := 30#6, St := { s.St with s4 := true, s5 := true, s6 := true, s7 := false },
      IVA := s.IVA || decide (e.memMax < ifAddr s.REFETCH s.IA),
      initMem := s.initMem || !decide (e.memMax < ifAddr s.REFETCH s.IA),
      ROAR := 328 ||| 2 * (ex || s.IA &&& 2#32 == 0#32).toNat + (ex || s.IA &&& 2#32 != 0#32 && s.REFETCH).toNat } := by
  rw [w883]; simp

/-- Word 732. -/
theorem w732 : ros 0x732 = {
      lu := 2, mv := 0, zp := 2176, zf := 3, zn := 7, tr := 3, ws := 4, sf := 7, iv := 0, al := 13, wm := 3, up := 1,
      md := 0, lb := 0, mb := 1, dg := 0, ul := 1, ur := 1, ce := 0, lx := 0, tc := 1, ry := 1, ad := 1, ab := 22,
      bb := 0, ss := 0 } := by
  decide +kernel

/-- `732 qj120-j1 E=0 R+0>M AL:SR1>Q |U:R3>U V:0 W:U>WL,U>WR>W67>LB |LS:FN,J>LSA 7 |CNTmb=3 |A:MD3=0 B:0 Z:88c B|(A=1)>B` -/
theorem x732 (e : Env) (ex : Bool) (s : S) :
    exec e (ros 0x732) ex s = .ok { s with
      M := s.R >>> 1, alu := s.R, aob := s.R >>> 1, u := BitVec.setWidth 8 s.R, w := BitVec.setWidth 8 s.R, MB := 3#2,
      LB := BitVec.setWidth 2 s.R, EDST := 3#2, LSA := s.FN ++ s.J, Q := s.R &&& 1#32 != 0#32,
      ROAR := 2188 ||| 2 * (s.MD &&& 1#4 == 0#4).toNat + (s.MD &&& 1#4 == 0#4).toNat } := by
  rw [w732]; simp

/-- Word 88f. -/
theorem w88f : ros 0x88f = {
      lu := 0, mv := 0, zp := 2176, zf := 12, zn := 4, tr := 3, ws := 7, sf := 2, iv := 0, al := 13, wm := 0, up := 2,
      md := 0, lb := 1, mb := 0, dg := 0, ul := 1, ur := 1, ce := 0, lx := 0, tc := 1, ry := 2, ad := 1, ab := 0,
      bb := 20, ss := 0 } := by
  decide +kernel

/-- `88f qj120-e2 E=0 M+0>M AL:SR1>Q |U:0 V:0 W:U>WL,U>WR>0 |LS:FN,MD|1>LSA LS>R>LS |CNTlb- |A:0 B:LB=0 Z:8b0 ` -/
theorem x88f (e : Env) (ex : Bool) (s : S) :
    exec e (ros 0x88f) ex s = .ok { s with
      R := s.LS (s.FN ++ (s.MD ||| 1#4)), M := s.M >>> 1, alu := s.M, aob := s.M >>> 1, u := 0#8, w := 0#8,
      LB := s.LB - 1#2, EDST := 3#2, LSA := s.FN ++ (s.MD ||| 1#4), Q := s.M &&& 1#32 != 0#32,
      ROAR := 2224 ||| (s.LB == 0#2).toNat } := by
  rw [w88f]; simp

/-- Word 8b0. -/
theorem w8b0 : ros 0x8b0 = {
      lu := 0, mv := 2, zp := 2176, zf := 5, zn := 4, tr := 7, ws := 6, sf := 4, iv := 0, al := 13, wm := 10, up := 2,
      md := 0, lb := 0, mb := 0, dg := 0, ul := 1, ur := 2, ce := 0, lx := 1, tc := 1, ry := 0, ad := 1, ab := 0,
      bb := 0, ss := 0 } := by
  decide +kernel

/-- `8b0 qj120-j3 E=0 0+L>L AL:SR1>Q |U:0 V:MMB>V W:U>WL,V>WR>WL>G2 |LS:FN,MD>LSA L>LS |A:0 B:0 Z:894 ` -/
theorem x8b0 (e : Env) (ex : Bool) (s : S) :
    exec e (ros 0x8b0) ex s = .ok { s with
      L := s.L >>> 1, alu := s.L, aob := s.L >>> 1, u := 0#8, w := byteOf s.M s.MB &&& 15#8,
      G := s.G &&& 240#8 ||| byteOf s.M s.MB &&& 15#8 &&& 15#8,
      EDST := if byteOf s.M s.MB &&& 252#8 = 32#8 then BitVec.setWidth 2 (byteOf s.M s.MB) else 3#2,
      LSA := s.FN ++ s.MD, Q := s.L &&& 1#32 != 0#32, G2NEG := false, ROAR := 0x894,
      LS := lsPut s.LS (s.FN ++ s.MD) (s.L >>> 1) } := by
  rw [w8b0]; simp

/-- Word 8b1. -/
theorem w8b1 : ros 0x8b1 = {
      lu := 0, mv := 2, zp := 2176, zf := 12, zn := 4, tr := 0, ws := 4, sf := 7, iv := 0, al := 0, wm := 10, up := 2,
      md := 0, lb := 0, mb := 0, dg := 0, ul := 1, ur := 2, ce := 0, lx := 0, tc := 1, ry := 0, ad := 1, ab := 1,
      bb := 1, ss := 0 } := by
  decide +kernel

/-- `8b1 qj120-a3 E=0 0+0>T |U:0 V:MMB>V W:U>WL,V>WR>WL>G2 |LS:FN,J>LSA 7 |A:1 B:1 Z:8b0 ` -/
theorem x8b1 (e : Env) (ex : Bool) (s : S) :
    exec e (ros 0x8b1) ex s = .ok { s with
      alu := 0#32, aob := 0#32, u := 0#8, w := byteOf s.M s.MB &&& 15#8,
      G := s.G &&& 240#8 ||| byteOf s.M s.MB &&& 15#8 &&& 15#8,
      EDST := if byteOf s.M s.MB &&& 252#8 = 32#8 then BitVec.setWidth 2 (byteOf s.M s.MB) else 3#2,
      LSA := s.FN ++ s.J, G2NEG := false, ROAR := 0x8b3 } := by
  rw [w8b1]; simp

/-- Word 8b2. -/
theorem w8b2 : ros 0x8b2 = {
      lu := 0, mv := 0, zp := 2176, zf := 5, zn := 4, tr := 7, ws := 6, sf := 4, iv := 0, al := 13, wm := 0, up := 2,
      md := 0, lb := 0, mb := 0, dg := 0, ul := 1, ur := 1, ce := 0, lx := 1, tc := 1, ry := 0, ad := 1, ab := 0,
      bb := 0, ss := 0 } := by
  decide +kernel

/-- `8b2 qj120-l5 E=0 0+L>L AL:SR1>Q |U:0 V:0 W:U>WL,U>WR>0 |LS:FN,MD>LSA L>LS |A:0 B:0 Z:894 ` -/
theorem x8b2 (e : Env) (ex : Bool) (s : S) :
    exec e (ros 0x8b2) ex s = .ok { s with
      L := s.L >>> 1, alu := s.L, aob := s.L >>> 1, u := 0#8, w := 0#8, EDST := 3#2, LSA := s.FN ++ s.MD,
      Q := s.L &&& 1#32 != 0#32, ROAR := 0x894, LS := lsPut s.LS (s.FN ++ s.MD) (s.L >>> 1) } := by
  rw [w8b2]; simp

/-- Word 8b3. -/
theorem w8b3 : ros 0x8b3 = {
      lu := 0, mv := 0, zp := 2176, zf := 4, zn := 2, tr := 7, ws := 7, sf := 0, iv := 0, al := 20, wm := 0, up := 2,
      md := 0, lb := 0, mb := 0, dg := 5, ul := 1, ur := 1, ce := 0, lx := 1, tc := 1, ry := 0, ad := 1, ab := 0,
      bb := 23, ss := 0 } := by
  decide +kernel

/-- `8b3 qj120-g5 E=0 0+L>L AL:SR4>F |U:0 V:0 W:U>WL,U>WR>0 |LS:FN,MD|1>LSA R>LS |DG:G2-1 |A:0 B:G2=0 Z:890 A|(B=0)>A` -/
theorem x8b3 (e : Env) (ex : Bool) (s : S) :
    exec e (ros 0x8b3) ex s = .ok { s with
      L := s.L >>> 4, alu := s.L, aob := s.L >>> 4, u := 0#8, w := 0#8, F := loDig s.L,
      G := s.G &&& 240#8 ||| s.G - 1#8 &&& 15#8, EDST := 3#2, LSA := s.FN ++ (s.MD ||| 1#4),
      G2NEG := s.G2NEG || s.G &&& 15#8 == 0#8,
      ROAR := 2192 ||| 2 * (!s.G &&& 15#8 == 0#8).toNat + (s.G &&& 15#8 == 0#8).toNat,
      LS := lsPut s.LS (s.FN ++ (s.MD ||| 1#4)) s.R } := by
  rw [w8b3]; simp

/-- Word 894. -/
theorem w894 : ros 0x894 = {
      lu := 0, mv := 0, zp := 2176, zf := 12, zn := 4, tr := 1, ws := 4, sf := 7, iv := 0, al := 14, wm := 0, up := 2,
      md := 0, lb := 1, mb := 0, dg := 0, ul := 1, ur := 1, ce := 0, lx := 0, tc := 1, ry := 1, ad := 1, ab := 1,
      bb := 20, ss := 0 } := by
  decide +kernel

/-- `894 qj120-j4 E=0 R+0>R AL:Q>SR1>Q |U:0 V:0 W:U>WL,U>WR>0 |LS:FN,J>LSA 7 |CNTlb- |A:1 B:LB=0 Z:8b0 ` -/
theorem x894 (e : Env) (ex : Bool) (s : S) :
    exec e (ros 0x894) ex s = .ok { s with
      R := s.R >>> 1 ||| if s.Q = true then 2147483648#32 else 0#32, alu := s.R,
      aob := s.R >>> 1 ||| if s.Q = true then 2147483648#32 else 0#32, u := 0#8, w := 0#8, LB := s.LB - 1#2,
      EDST := 3#2, LSA := s.FN ++ s.J, Q := s.R &&& 1#32 != 0#32, ROAR := 2224 ||| 2 + (s.LB == 0#2).toNat } := by
  rw [w894]; simp

/-- Word 890. -/
theorem w890 : ros 0x890 = {
      lu := 0, mv := 0, zp := 2176, zf := 13, zn := 4, tr := 7, ws := 7, sf := 0, iv := 0, al := 17, wm := 0, up := 2,
      md := 0, lb := 0, mb := 0, dg := 0, ul := 1, ur := 1, ce := 0, lx := 1, tc := 1, ry := 0, ad := 1, ab := 1,
      bb := 1, ss := 0 } := by
  decide +kernel

/-- `890 qj130-q6 E=0 0+L>L AL:F>SL4>F |U:0 V:0 W:U>WL,U>WR>0 |LS:FN,MD|1>LSA R>LS |A:1 B:1 Z:8b4 ` -/
theorem x890 (e : Env) (ex : Bool) (s : S) :
    exec e (ros 0x890) ex s = .ok { s with
      L := s.L <<< 4 ||| BitVec.setWidth 32 s.F &&& 15#32, alu := s.L,
      aob := s.L <<< 4 ||| BitVec.setWidth 32 s.F &&& 15#32, u := 0#8, w := 0#8, F := hiDig s.L, EDST := 3#2,
      LSA := s.FN ++ (s.MD ||| 1#4), ROAR := 0x8b7, LS := lsPut s.LS (s.FN ++ (s.MD ||| 1#4)) s.R } := by
  rw [w890]; simp

/-- Word 891. -/
theorem w891 : ros 0x891 = {
      lu := 0, mv := 0, zp := 320, zf := 2, zn := 4, tr := 0, ws := 3, sf := 6, iv := 7, al := 0, wm := 0, up := 2,
      md := 0, lb := 0, mb := 0, dg := 0, ul := 1, ur := 1, ce := 14, lx := 0, tc := 1, ry := 0, ad := 1, ab := 56,
      bb := 0, ss := 24 } := by
  decide +kernel

/-- `891 qj130-n7 E=e 0+0>T |U:0 V:0 W:U>WL,U>WR>0 |LS:WS,E>LSA LS>L>LS |IV:IA+0/2>A |SS:E>S47 |A:I-FETCH B:0 Z:148 ` -/
theorem x891 (e : Env) (ex : Bool) (s : S) :
    exec e (ros 0x891) ex s = .ok { s with
      L := s.LS 30#6, SAR := ifAddr s.REFETCH s.IA, alu := 0#32, aob := 0#32, u := 0#8, w := 0#8, EDST := 3#2,
      LSA := 30#6, St := { s.St with s4 := true, s5 := true, s6 := true, s7 := false },
      IVA := s.IVA || decide (e.memMax < ifAddr s.REFETCH s.IA),
      initMem := s.initMem || !decide (e.memMax < ifAddr s.REFETCH s.IA),
      ROAR := 328 ||| 2 * (ex || s.IA &&& 2#32 == 0#32).toNat + (ex || s.IA &&& 2#32 != 0#32 && s.REFETCH).toNat } := by
  rw [w891]; simp

/-- Word 892. -/
theorem w892 : ros 0x892 = {
      lu := 0, mv := 0, zp := 2176, zf := 12, zn := 4, tr := 1, ws := 6, sf := 4, iv := 0, al := 21, wm := 0, up := 2,
      md := 0, lb := 0, mb := 0, dg := 0, ul := 1, ur := 1, ce := 0, lx := 0, tc := 1, ry := 1, ad := 1, ab := 1,
      bb := 1, ss := 0 } := by
  decide +kernel

/-- `892 qj120-e7 E=0 R+0>R AL:F>SR4>F |U:0 V:0 W:U>WL,U>WR>0 |LS:FN,MD>LSA L>LS |A:1 B:1 Z:8b0 ` -/
theorem x892 (e : Env) (ex : Bool) (s : S) :
    exec e (ros 0x892) ex s = .ok { s with
      R := s.R >>> 4 ||| (BitVec.setWidth 32 s.F &&& 15#32) <<< 28, alu := s.R,
      aob := s.R >>> 4 ||| (BitVec.setWidth 32 s.F &&& 15#32) <<< 28, u := 0#8, w := 0#8, F := loDig s.R, EDST := 3#2,
      LSA := s.FN ++ s.MD, ROAR := 0x8b3, LS := lsPut s.LS (s.FN ++ s.MD) s.L } := by
  rw [w892]; simp

/-- Word 893. -/
theorem w893 : ros 0x893 = {
      lu := 0, mv := 0, zp := 2176, zf := 13, zn := 4, tr := 7, ws := 4, sf := 7, iv := 0, al := 8, wm := 0, up := 2,
      md := 0, lb := 1, mb := 0, dg := 0, ul := 1, ur := 1, ce := 0, lx := 1, tc := 1, ry := 0, ad := 1, ab := 1,
      bb := 20, ss := 0 } := by
  decide +kernel

/-- `893 qj130-g4 E=0 0+L>L AL:Q>SL1>F |U:0 V:0 W:U>WL,U>WR>0 |LS:FN,J>LSA 7 |CNTlb- |A:1 B:LB=0 Z:8b4 ` -/
theorem x893 (e : Env) (ex : Bool) (s : S) :
    exec e (ros 0x893) ex s = .ok { s with
      L := s.L <<< 1 ||| bitW s.Q, alu := s.L, aob := s.L <<< 1 ||| bitW s.Q, u := 0#8, w := 0#8,
      F := (BitVec.setWidth 8 (s.L >>> 31) ||| s.F <<< 1) &&& 15#8, LB := s.LB - 1#2, EDST := 3#2, LSA := s.FN ++ s.J,
      ROAR := 2228 ||| 2 + (s.LB == 0#2).toNat } := by
  rw [w893]; simp

/-- Word 736. -/
theorem w736 : ros 0x736 = {
      lu := 2, mv := 0, zp := 2176, zf := 3, zn := 4, tr := 3, ws := 4, sf := 7, iv := 0, al := 13, wm := 3, up := 1,
      md := 0, lb := 0, mb := 1, dg := 0, ul := 1, ur := 1, ce := 0, lx := 0, tc := 1, ry := 1, ad := 1, ab := 22,
      bb := 0, ss := 0 } := by
  decide +kernel

/-- `736 qj130-e1 E=0 R+0>M AL:SR1>Q |U:R3>U V:0 W:U>WL,U>WR>W67>LB |LS:FN,J>LSA 7 |CNTmb=3 |A:MD3=0 B:0 Z:88c ` -/
theorem x736 (e : Env) (ex : Bool) (s : S) :
    exec e (ros 0x736) ex s = .ok { s with
      M := s.R >>> 1, alu := s.R, aob := s.R >>> 1, u := BitVec.setWidth 8 s.R, w := BitVec.setWidth 8 s.R, MB := 3#2,
      LB := BitVec.setWidth 2 s.R, EDST := 3#2, LSA := s.FN ++ s.J, Q := s.R &&& 1#32 != 0#32,
      ROAR := 2188 ||| 2 * (s.MD &&& 1#4 == 0#4).toNat } := by
  rw [w736]; simp

/-- Word 88e. -/
theorem w88e : ros 0x88e = {
      lu := 0, mv := 0, zp := 2176, zf := 13, zn := 4, tr := 3, ws := 7, sf := 2, iv := 0, al := 13, wm := 0, up := 2,
      md := 0, lb := 1, mb := 0, dg := 0, ul := 1, ur := 1, ce := 0, lx := 0, tc := 1, ry := 2, ad := 1, ab := 0,
      bb := 20, ss := 0 } := by
  decide +kernel

/-- `88e qj130-g2 E=0 M+0>M AL:SR1>Q |U:0 V:0 W:U>WL,U>WR>0 |LS:FN,MD|1>LSA LS>R>LS |CNTlb- |A:0 B:LB=0 Z:8b4 ` -/
theorem x88e (e : Env) (ex : Bool) (s : S) :
    exec e (ros 0x88e) ex s = .ok { s with
      R := s.LS (s.FN ++ (s.MD ||| 1#4)), M := s.M >>> 1, alu := s.M, aob := s.M >>> 1, u := 0#8, w := 0#8,
      LB := s.LB - 1#2, EDST := 3#2, LSA := s.FN ++ (s.MD ||| 1#4), Q := s.M &&& 1#32 != 0#32,
      ROAR := 2228 ||| (s.LB == 0#2).toNat } := by
  rw [w88e]; simp

/-- Word 8b4. -/
theorem w8b4 : ros 0x8b4 = {
      lu := 0, mv := 2, zp := 2176, zf := 4, zn := 4, tr := 1, ws := 7, sf := 0, iv := 0, al := 10, wm := 10, up := 2,
      md := 0, lb := 0, mb := 0, dg := 0, ul := 1, ur := 2, ce := 0, lx := 0, tc := 1, ry := 1, ad := 1, ab := 1,
      bb := 1, ss := 0 } := by
  decide +kernel

/-- `8b4 qj130-g3 E=0 R+0>R AL:SL1>Q |U:0 V:MMB>V W:U>WL,V>WR>WL>G2 |LS:FN,MD|1>LSA R>LS |A:1 B:1 Z:890 ` -/
theorem x8b4 (e : Env) (ex : Bool) (s : S) :
    exec e (ros 0x8b4) ex s = .ok { s with
      R := s.R <<< 1, alu := s.R, aob := s.R <<< 1, u := 0#8, w := byteOf s.M s.MB &&& 15#8,
      G := s.G &&& 240#8 ||| byteOf s.M s.MB &&& 15#8 &&& 15#8,
      EDST := if byteOf s.M s.MB &&& 252#8 = 32#8 then BitVec.setWidth 2 (byteOf s.M s.MB) else 3#2,
      LSA := s.FN ++ (s.MD ||| 1#4), Q := BitVec.msb s.R, G2NEG := false, ROAR := 0x893,
      LS := lsPut s.LS (s.FN ++ (s.MD ||| 1#4)) (s.R <<< 1) } := by
  rw [w8b4]; simp

/-- Word 8b5. -/
theorem w8b5 : ros 0x8b5 = {
      lu := 0, mv := 2, zp := 2176, zf := 13, zn := 4, tr := 0, ws := 4, sf := 7, iv := 0, al := 0, wm := 10, up := 2,
      md := 0, lb := 0, mb := 0, dg := 0, ul := 1, ur := 2, ce := 0, lx := 1, tc := 1, ry := 0, ad := 1, ab := 1,
      bb := 1, ss := 0 } := by
  decide +kernel

/-- `8b5 qj130-n3 E=0 0+L>T |U:0 V:MMB>V W:U>WL,V>WR>WL>G2 |LS:FN,J>LSA 7 |A:1 B:1 Z:8b4 ` -/
theorem x8b5 (e : Env) (ex : Bool) (s : S) :
    exec e (ros 0x8b5) ex s = .ok { s with
      alu := s.L, aob := s.L, u := 0#8, w := byteOf s.M s.MB &&& 15#8,
      G := s.G &&& 240#8 ||| byteOf s.M s.MB &&& 15#8 &&& 15#8,
      EDST := if byteOf s.M s.MB &&& 252#8 = 32#8 then BitVec.setWidth 2 (byteOf s.M s.MB) else 3#2,
      LSA := s.FN ++ s.J, G2NEG := false, ROAR := 0x8b7 } := by
  rw [w8b5]; simp

/-- Word 8b6. -/
theorem w8b6 : ros 0x8b6 = {
      lu := 0, mv := 0, zp := 2176, zf := 4, zn := 4, tr := 1, ws := 7, sf := 0, iv := 0, al := 10, wm := 0, up := 2,
      md := 0, lb := 0, mb := 0, dg := 0, ul := 1, ur := 1, ce := 0, lx := 0, tc := 1, ry := 1, ad := 1, ab := 1,
      bb := 1, ss := 0 } := by
  decide +kernel

/-- `8b6 qj130-g5 E=0 R+0>R AL:SL1>Q |U:0 V:0 W:U>WL,U>WR>0 |LS:FN,MD|1>LSA R>LS |A:1 B:1 Z:890 ` -/
theorem x8b6 (e : Env) (ex : Bool) (s : S) :
    exec e (ros 0x8b6) ex s = .ok { s with
      R := s.R <<< 1, alu := s.R, aob := s.R <<< 1, u := 0#8, w := 0#8, EDST := 3#2, LSA := s.FN ++ (s.MD ||| 1#4),
      Q := BitVec.msb s.R, ROAR := 0x893, LS := lsPut s.LS (s.FN ++ (s.MD ||| 1#4)) (s.R <<< 1) } := by
  rw [w8b6]; simp

/-- Word 8b7. -/
theorem w8b7 : ros 0x8b7 = {
      lu := 0, mv := 0, zp := 2176, zf := 4, zn := 4, tr := 1, ws := 6, sf := 4, iv := 0, al := 16, wm := 0, up := 2,
      md := 0, lb := 0, mb := 0, dg := 5, ul := 1, ur := 1, ce := 0, lx := 0, tc := 1, ry := 1, ad := 1, ab := 0,
      bb := 23, ss := 0 } := by
  decide +kernel

/-- `8b7 qj130-n5 E=0 R+0>R AL:SL4>F |U:0 V:0 W:U>WL,U>WR>0 |LS:FN,MD>LSA L>LS |DG:G2-1 |A:0 B:G2=0 Z:890 ` -/
theorem x8b7 (e : Env) (ex : Bool) (s : S) :
    exec e (ros 0x8b7) ex s = .ok { s with
      R := s.R <<< 4, alu := s.R, aob := s.R <<< 4, u := 0#8, w := 0#8, F := hiDig s.R,
      G := s.G &&& 240#8 ||| s.G - 1#8 &&& 15#8, EDST := 3#2, LSA := s.FN ++ s.MD,
      G2NEG := s.G2NEG || s.G &&& 15#8 == 0#8, ROAR := 2192 ||| (s.G &&& 15#8 == 0#8).toNat,
      LS := lsPut s.LS (s.FN ++ s.MD) s.L } := by
  rw [w8b7]; simp

/-- Word 73a. -/
theorem w73a : ros 0x73a = {
      lu := 2, mv := 0, zp := 2176, zf := 10, zn := 4, tr := 3, ws := 7, sf := 2, iv := 0, al := 13, wm := 3, up := 1,
      md := 0, lb := 0, mb := 1, dg := 0, ul := 1, ur := 1, ce := 0, lx := 0, tc := 1, ry := 1, ad := 1, ab := 31,
      bb := 1, ss := 0 } := by
  decide +kernel

/-- `73a qj140-j1 E=0 R+0>M AL:SR1>Q |U:R3>U V:0 W:U>WL,U>WR>W67>LB |LS:FN,MD|1>LSA LS>R>LS |CNTmb=3 |A:L(0) B:1 Z:8a8 ` -/
theorem x73a (e : Env) (ex : Bool) (s : S) :
    exec e (ros 0x73a) ex s = .ok { s with
      R := s.LS (s.FN ++ (s.MD ||| 1#4)), M := s.R >>> 1, alu := s.R, aob := s.R >>> 1, u := BitVec.setWidth 8 s.R,
      w := BitVec.setWidth 8 s.R, MB := 3#2, LB := BitVec.setWidth 2 s.R, EDST := 3#2, LSA := s.FN ++ (s.MD ||| 1#4),
      Q := s.R &&& 1#32 != 0#32, ROAR := 2216 ||| 2 * (BitVec.msb s.L).toNat + 1 } := by
  rw [w73a]; simp

/-- Word 8a9. -/
theorem w8a9 : ros 0x8a9 = {
      lu := 0, mv := 0, zp := 2176, zf := 5, zn := 6, tr := 3, ws := 4, sf := 7, iv := 0, al := 13, wm := 14, up := 2,
      md := 0, lb := 1, mb := 0, dg := 0, ul := 1, ur := 1, ce := 0, lx := 0, tc := 1, ry := 2, ad := 1, ab := 22,
      bb := 20, ss := 0 } := by
  decide +kernel

/-- `8a9 qj140-e2 E=0 M+0>M AL:SR1>Q |U:0 V:0 W:U>WL,U>WR>WR>F |LS:FN,J>LSA 7 |CNTlb- |A:MD3=0 B:LB=0 Z:894 B|(A=0)>B` -/
theorem x8a9 (e : Env) (ex : Bool) (s : S) :
    exec e (ros 0x8a9) ex s = .ok { s with
      M := s.M >>> 1, alu := s.M, aob := s.M >>> 1, u := 0#8, w := 0#8, F := 0#8, LB := s.LB - 1#2, EDST := 3#2,
      LSA := s.FN ++ s.J, Q := s.M &&& 1#32 != 0#32,
      ROAR := 2196 ||| 2 * (s.MD &&& 1#4 == 0#4).toNat + (s.LB == 0#2 || !s.MD &&& 1#4 == 0#4).toNat } := by
  rw [w8a9]; simp

/-- Word 8ab. -/
theorem w8ab : ros 0x8ab = {
      lu := 0, mv := 0, zp := 2176, zf := 5, zn := 6, tr := 3, ws := 4, sf := 7, iv := 0, al := 13, wm := 14, up := 2,
      md := 0, lb := 1, mb := 0, dg := 0, ul := 1, ur := 0, ce := 15, lx := 0, tc := 1, ry := 2, ad := 1, ab := 22,
      bb := 20, ss := 0 } := by
  decide +kernel

/-- `8ab qj140-n2 E=f M+0>M AL:SR1>Q |U:0 V:0 W:U>WL,E>WR>WR>F |LS:FN,J>LSA 7 |CNTlb- |A:MD3=0 B:LB=0 Z:894 B|(A=0)>B` -/
theorem x8ab (e : Env) (ex : Bool) (s : S) :
    exec e (ros 0x8ab) ex s = .ok { s with
      M := s.M >>> 1, alu := s.M, aob := s.M >>> 1, u := 0#8, w := 15#8, F := 15#8, LB := s.LB - 1#2, EDST := 3#2,
      LSA := s.FN ++ s.J, Q := s.M &&& 1#32 != 0#32,
      ROAR := 2196 ||| 2 * (s.MD &&& 1#4 == 0#4).toNat + (s.LB == 0#2 || !s.MD &&& 1#4 == 0#4).toNat } := by
  rw [w8ab]; simp

/-- Word 896. -/
theorem w896 : ros 0x896 = {
      lu := 0, mv := 2, zp := 2176, zf := 6, zn := 4, tr := 7, ws := 4, sf := 7, iv := 0, al := 27, wm := 10, up := 2,
      md := 0, lb := 0, mb := 0, dg := 0, ul := 1, ur := 2, ce := 0, lx := 1, tc := 1, ry := 0, ad := 1, ab := 0,
      bb := 0, ss := 0 } := by
  decide +kernel

/-- `896 qj140-a3 E=0 0+L>L AL:F>SR1>Q |U:0 V:MMB>V W:U>WL,V>WR>WL>G2 |LS:FN,J>LSA 7 |A:0 B:0 Z:898 ` -/
theorem x896 (e : Env) (ex : Bool) (s : S) :
    exec e (ros 0x896) ex s = .ok { s with
      L := s.L >>> 1 ||| (BitVec.setWidth 32 s.F &&& 1#32) <<< 31, alu := s.L,
      aob := s.L >>> 1 ||| (BitVec.setWidth 32 s.F &&& 1#32) <<< 31, u := 0#8, w := byteOf s.M s.MB &&& 15#8,
      G := s.G &&& 240#8 ||| byteOf s.M s.MB &&& 15#8 &&& 15#8,
      EDST := if byteOf s.M s.MB &&& 252#8 = 32#8 then BitVec.setWidth 2 (byteOf s.M s.MB) else 3#2,
      LSA := s.FN ++ s.J, Q := s.L &&& 1#32 != 0#32, G2NEG := false, ROAR := 0x898 } := by
  rw [w896]; simp

/-- Word 897. -/
theorem w897 : ros 0x897 = {
      lu := 0, mv := 2, zp := 2176, zf := 14, zn := 4, tr := 0, ws := 4, sf := 7, iv := 0, al := 0, wm := 10, up := 2,
      md := 0, lb := 0, mb := 0, dg := 0, ul := 1, ur := 2, ce := 0, lx := 0, tc := 1, ry := 0, ad := 1, ab := 1,
      bb := 1, ss := 0 } := by
  decide +kernel

/-- `897 qj140-e3 E=0 0+0>T |U:0 V:MMB>V W:U>WL,V>WR>WL>G2 |LS:FN,J>LSA 7 |A:1 B:1 Z:8b8 ` -/
theorem x897 (e : Env) (ex : Bool) (s : S) :
    exec e (ros 0x897) ex s = .ok { s with
      alu := 0#32, aob := 0#32, u := 0#8, w := byteOf s.M s.MB &&& 15#8,
      G := s.G &&& 240#8 ||| byteOf s.M s.MB &&& 15#8 &&& 15#8,
      EDST := if byteOf s.M s.MB &&& 252#8 = 32#8 then BitVec.setWidth 2 (byteOf s.M s.MB) else 3#2,
      LSA := s.FN ++ s.J, G2NEG := false, ROAR := 0x8bb } := by
  rw [w897]; simp

/-- Word 8b8. -/
theorem w8b8 : ros 0x8b8 = {
      lu := 0, mv := 2, zp := 2176, zf := 15, zn := 4, tr := 1, ws := 4, sf := 7, iv := 0, al := 25, wm := 14, up := 2,
      md := 0, lb := 0, mb := 0, dg := 0, ul := 1, ur := 2, ce := 0, lx := 0, tc := 1, ry := 1, ad := 1, ab := 0,
      bb := 0, ss := 0 } := by
  decide +kernel

/-- `8b8 qj140-e7 E=0 R+0>R AL:F>SR4 |U:0 V:MMB>V W:U>WL,V>WR>WR>F |LS:FN,J>LSA 7 |A:0 B:0 Z:8bc ` -/
theorem x8b8 (e : Env) (ex : Bool) (s : S) :
    exec e (ros 0x8b8) ex s = .ok { s with
      R := s.R >>> 4 ||| (BitVec.setWidth 32 s.F &&& 15#32) <<< 28, alu := s.R,
      aob := s.R >>> 4 ||| (BitVec.setWidth 32 s.F &&& 15#32) <<< 28, u := 0#8, w := byteOf s.M s.MB &&& 15#8,
      F := byteOf s.M s.MB &&& 15#8 &&& 15#8,
      EDST := if byteOf s.M s.MB &&& 252#8 = 32#8 then BitVec.setWidth 2 (byteOf s.M s.MB) else 3#2,
      LSA := s.FN ++ s.J, ROAR := 0x8bc } := by
  rw [w8b8]; simp

/-- Word 8b9. -/
theorem w8b9 : ros 0x8b9 = {
      lu := 0, mv := 0, zp := 2176, zf := 6, zn := 4, tr := 1, ws := 7, sf := 0, iv := 0, al := 25, wm := 0, up := 2,
      md := 0, lb := 0, mb := 0, dg := 0, ul := 1, ur := 1, ce := 0, lx := 0, tc := 1, ry := 1, ad := 1, ab := 1,
      bb := 17, ss := 0 } := by
  decide +kernel

/-- `8b9 qj140-a7 E=0 R+0>R AL:F>SR4 |U:0 V:0 W:U>WL,U>WR>0 |LS:FN,MD|1>LSA R>LS |A:1 B:T=0 Z:898 ` -/
theorem x8b9 (e : Env) (ex : Bool) (s : S) :
    exec e (ros 0x8b9) ex s = .ok { s with
      R := s.R >>> 4 ||| (BitVec.setWidth 32 s.F &&& 15#32) <<< 28, alu := s.R,
      aob := s.R >>> 4 ||| (BitVec.setWidth 32 s.F &&& 15#32) <<< 28, u := 0#8, w := 0#8, EDST := 3#2,
      LSA := s.FN ++ (s.MD ||| 1#4), ROAR := 2200 ||| 2 + (s.aob == 0#32).toNat,
      LS := lsPut s.LS (s.FN ++ (s.MD ||| 1#4)) (s.R >>> 4 ||| (BitVec.setWidth 32 s.F &&& 15#32) <<< 28) } := by
  rw [w8b9]; simp

/-- Word 8ba. -/
theorem w8ba : ros 0x8ba = {
      lu := 0, mv := 0, zp := 2176, zf := 6, zn := 4, tr := 7, ws := 4, sf := 7, iv := 0, al := 27, wm := 0, up := 2,
      md := 0, lb := 0, mb := 0, dg := 0, ul := 1, ur := 1, ce := 0, lx := 1, tc := 1, ry := 0, ad := 1, ab := 0,
      bb := 0, ss := 0 } := by
  decide +kernel

/-- `8ba qj140-c5 E=0 0+L>L AL:F>SR1>Q |U:0 V:0 W:U>WL,U>WR>0 |LS:FN,J>LSA 7 |A:0 B:0 Z:898 ` -/
theorem x8ba (e : Env) (ex : Bool) (s : S) :
    exec e (ros 0x8ba) ex s = .ok { s with
      L := s.L >>> 1 ||| (BitVec.setWidth 32 s.F &&& 1#32) <<< 31, alu := s.L,
      aob := s.L >>> 1 ||| (BitVec.setWidth 32 s.F &&& 1#32) <<< 31, u := 0#8, w := 0#8, EDST := 3#2,
      LSA := s.FN ++ s.J, Q := s.L &&& 1#32 != 0#32, ROAR := 0x898 } := by
  rw [w8ba]; simp

/-- Word 8bb. -/
theorem w8bb : ros 0x8bb = {
      lu := 0, mv := 0, zp := 2176, zf := 15, zn := 4, tr := 0, ws := 6, sf := 4, iv := 0, al := 0, wm := 0, up := 2,
      md := 0, lb := 0, mb := 0, dg := 5, ul := 1, ur := 1, ce := 0, lx := 1, tc := 1, ry := 0, ad := 1, ab := 0,
      bb := 23, ss := 41 } := by
  decide +kernel

/-- `8bb qj140-g5 E=0 0+L>T |U:0 V:0 W:U>WL,U>WR>0 |LS:FN,MD>LSA L>LS |DG:G2-1 |SS:SETCRALG |A:0 B:G2=0 Z:8bc ` -/
theorem x8bb (e : Env) (ex : Bool) (s : S) :
    exec e (ros 0x8bb) ex s = .ok { s with
      alu := s.L, aob := s.L, u := 0#8, w := 0#8, G := s.G &&& 240#8 ||| s.G - 1#8 &&& 15#8, EDST := 3#2,
      CC := if s.L = 0#32 then 0#2 else if BitVec.msb s.L = true then 1#2 else 2#2, LSA := s.FN ++ s.MD,
      G2NEG := s.G2NEG || s.G &&& 15#8 == 0#8, ROAR := 2236 ||| (s.G &&& 15#8 == 0#8).toNat,
      LS := lsPut s.LS (s.FN ++ s.MD) s.L } := by
  rw [w8bb]; simp

/-- Word 8bc. -/
theorem w8bc : ros 0x8bc = {
      lu := 1, mv := 0, zp := 2176, zf := 14, zn := 4, tr := 7, ws := 6, sf := 4, iv := 0, al := 21, wm := 1, up := 2,
      md := 0, lb := 0, mb := 0, dg := 5, ul := 1, ur := 1, ce := 0, lx := 1, tc := 1, ry := 0, ad := 1, ab := 0,
      bb := 23, ss := 41 } := by
  decide +kernel

/-- `8bc qj140-g6 E=0 0+L>L AL:F>SR4>F |U:MD,F>U V:0 W:U>WL,U>WR>W>MMB |LS:FN,MD>LSA L>LS |DG:G2-1 |SS:SETCRALG |A:0 B:G2=0 Z:8b8 ` -/
theorem x8bc (e : Env) (ex : Bool) (s : S) :
    exec e (ros 0x8bc) ex s = .ok { s with
      L := s.L >>> 4 ||| (BitVec.setWidth 32 s.F &&& 15#32) <<< 28,
      M := putByte s.M s.MB (BitVec.setWidth 8 s.MD <<< 4 ||| s.F), alu := s.L,
      aob := s.L >>> 4 ||| (BitVec.setWidth 32 s.F &&& 15#32) <<< 28, u := BitVec.setWidth 8 s.MD <<< 4 ||| s.F,
      w := BitVec.setWidth 8 s.MD <<< 4 ||| s.F, F := loDig s.L, G := s.G &&& 240#8 ||| s.G - 1#8 &&& 15#8,
      EDST := 3#2,
      CC := if s.L >>> 4 = 0#32 ∧ (BitVec.setWidth 32 s.F &&& 15#32) <<< 28 = 0#32 then 0#2 else if BitVec.getMsbD s.F 4 = true then 1#2 else 2#2,
      LSA := s.FN ++ s.MD, G2NEG := s.G2NEG || s.G &&& 15#8 == 0#8, ROAR := 2232 ||| (s.G &&& 15#8 == 0#8).toNat,
      LS := lsPut s.LS (s.FN ++ s.MD) (s.L >>> 4 ||| (BitVec.setWidth 32 s.F &&& 15#32) <<< 28) } := by
  rw [w8bc]; simp

/-- Word 8bd. -/
theorem w8bd : ros 0x8bd = {
      lu := 0, mv := 0, zp := 2176, zf := 6, zn := 4, tr := 0, ws := 7, sf := 0, iv := 0, al := 0, wm := 0, up := 2,
      md := 0, lb := 0, mb := 0, dg := 0, ul := 1, ur := 1, ce := 0, lx := 0, tc := 1, ry := 1, ad := 1, ab := 1,
      bb := 17, ss := 0 } := by
  decide +kernel

/-- `8bd qj140-l6 E=0 R+0>T |U:0 V:0 W:U>WL,U>WR>0 |LS:FN,MD|1>LSA R>LS |A:1 B:T=0 Z:898 ` -/
theorem x8bd (e : Env) (ex : Bool) (s : S) :
    exec e (ros 0x8bd) ex s = .ok { s with
      alu := s.R, aob := s.R, u := 0#8, w := 0#8, EDST := 3#2, LSA := s.FN ++ (s.MD ||| 1#4),
      ROAR := 2200 ||| 2 + (s.aob == 0#32).toNat, LS := lsPut s.LS (s.FN ++ (s.MD ||| 1#4)) s.R } := by
  rw [w8bd]; simp

/-- Word 8be. -/
theorem w8be : ros 0x8be = {
      lu := 0, mv := 0, zp := 320, zf := 2, zn := 4, tr := 0, ws := 4, sf := 7, iv := 7, al := 0, wm := 0, up := 2,
      md := 0, lb := 0, mb := 0, dg := 0, ul := 1, ur := 1, ce := 2, lx := 0, tc := 1, ry := 0, ad := 1, ab := 56,
      bb := 0, ss := 40 } := by
  decide +kernel

/-- `8be qj140-e9 E=2 0+0>T |U:0 V:0 W:U>WL,U>WR>0 |LS:FN,J>LSA 7 |IV:IA+0/2>A |SS:E(23)->CR |A:I-FETCH B:0 Z:148 ` -/
theorem x8be (e : Env) (ex : Bool) (s : S) :
    exec e (ros 0x8be) ex s = .ok { s with
      SAR := ifAddr s.REFETCH s.IA, alu := 0#32, aob := 0#32, u := 0#8, w := 0#8, EDST := 3#2, CC := 2#2,
      LSA := s.FN ++ s.J, IVA := s.IVA || decide (e.memMax < ifAddr s.REFETCH s.IA),
      initMem := s.initMem || !decide (e.memMax < ifAddr s.REFETCH s.IA),
      ROAR := 328 ||| 2 * (ex || s.IA &&& 2#32 == 0#32).toNat + (ex || s.IA &&& 2#32 != 0#32 && s.REFETCH).toNat } := by
  rw [w8be]; simp

/-- Word 8bf. -/
theorem w8bf : ros 0x8bf = {
      lu := 0, mv := 0, zp := 320, zf := 2, zn := 4, tr := 0, ws := 4, sf := 7, iv := 7, al := 0, wm := 0, up := 2,
      md := 0, lb := 0, mb := 0, dg := 0, ul := 1, ur := 1, ce := 0, lx := 0, tc := 1, ry := 0, ad := 1, ab := 56,
      bb := 0, ss := 0 } := by
  decide +kernel

/-- `8bf qj140-j9 E=0 0+0>T |U:0 V:0 W:U>WL,U>WR>0 |LS:FN,J>LSA 7 |IV:IA+0/2>A |A:I-FETCH B:0 Z:148 ` -/
theorem x8bf (e : Env) (ex : Bool) (s : S) :
    exec e (ros 0x8bf) ex s = .ok { s with
      SAR := ifAddr s.REFETCH s.IA, alu := 0#32, aob := 0#32, u := 0#8, w := 0#8, EDST := 3#2, LSA := s.FN ++ s.J,
      IVA := s.IVA || decide (e.memMax < ifAddr s.REFETCH s.IA),
      initMem := s.initMem || !decide (e.memMax < ifAddr s.REFETCH s.IA),
      ROAR := 328 ||| 2 * (ex || s.IA &&& 2#32 == 0#32).toNat + (ex || s.IA &&& 2#32 != 0#32 && s.REFETCH).toNat } := by
  rw [w8bf]; simp

/-- Word 898. -/
theorem w898 : ros 0x898 = {
      lu := 0, mv := 0, zp := 2176, zf := 14, zn := 4, tr := 1, ws := 4, sf := 7, iv := 0, al := 14, wm := 0, up := 2,
      md := 0, lb := 1, mb := 0, dg := 0, ul := 1, ur := 1, ce := 0, lx := 0, tc := 1, ry := 1, ad := 1, ab := 1,
      bb := 20, ss := 0 } := by
  decide +kernel

/-- `898 qj140-c4 E=0 R+0>R AL:Q>SR1>Q |U:0 V:0 W:U>WL,U>WR>0 |LS:FN,J>LSA 7 |CNTlb- |A:1 B:LB=0 Z:8b8 ` -/
theorem x898 (e : Env) (ex : Bool) (s : S) :
    exec e (ros 0x898) ex s = .ok { s with
      R := s.R >>> 1 ||| if s.Q = true then 2147483648#32 else 0#32, alu := s.R,
      aob := s.R >>> 1 ||| if s.Q = true then 2147483648#32 else 0#32, u := 0#8, w := 0#8, LB := s.LB - 1#2,
      EDST := 3#2, LSA := s.FN ++ s.J, Q := s.R &&& 1#32 != 0#32, ROAR := 2232 ||| 2 + (s.LB == 0#2).toNat } := by
  rw [w898]; simp

/-- Word 89a. -/
theorem w89a : ros 0x89a = {
      lu := 0, mv := 0, zp := 320, zf := 2, zn := 4, tr := 0, ws := 3, sf := 6, iv := 7, al := 0, wm := 0, up := 2,
      md := 0, lb := 0, mb := 0, dg := 0, ul := 1, ur := 1, ce := 14, lx := 0, tc := 1, ry := 0, ad := 1, ab := 56,
      bb := 0, ss := 24 } := by
  decide +kernel

/-- `89a qj140-c8 E=e 0+0>T |U:0 V:0 W:U>WL,U>WR>0 |LS:WS,E>LSA LS>L>LS |IV:IA+0/2>A |SS:E>S47 |A:I-FETCH B:0 Z:148 ` -/
theorem x89a (e : Env) (ex : Bool) (s : S) :
    exec e (ros 0x89a) ex s = .ok { s with
      L := s.LS 30#6, SAR := ifAddr s.REFETCH s.IA, alu := 0#32, aob := 0#32, u := 0#8, w := 0#8, EDST := 3#2,
      LSA := 30#6, St := { s.St with s4 := true, s5 := true, s6 := true, s7 := false },
      IVA := s.IVA || decide (e.memMax < ifAddr s.REFETCH s.IA),
      initMem := s.initMem || !decide (e.memMax < ifAddr s.REFETCH s.IA),
      ROAR := 328 ||| 2 * (ex || s.IA &&& 2#32 == 0#32).toNat + (ex || s.IA &&& 2#32 != 0#32 && s.REFETCH).toNat } := by
  rw [w89a]; simp

/-- Word 89b. -/
theorem w89b : ros 0x89b = {
      lu := 0, mv := 0, zp := 2176, zf := 15, zn := 4, tr := 0, ws := 3, sf := 6, iv := 0, al := 0, wm := 0, up := 2,
      md := 0, lb := 0, mb := 0, dg := 0, ul := 1, ur := 1, ce := 14, lx := 0, tc := 1, ry := 0, ad := 1, ab := 1,
      bb := 17, ss := 24 } := by
  decide +kernel

/-- `89b qj140-g8 E=e 0+0>T |U:0 V:0 W:U>WL,U>WR>0 |LS:WS,E>LSA LS>L>LS |SS:E>S47 |A:1 B:T=0 Z:8bc ` -/
theorem x89b (e : Env) (ex : Bool) (s : S) :
    exec e (ros 0x89b) ex s = .ok { s with
      L := s.LS 30#6, alu := 0#32, aob := 0#32, u := 0#8, w := 0#8, EDST := 3#2, LSA := 30#6,
      St := { s.St with s4 := true, s5 := true, s6 := true, s7 := false }, ROAR := 2236 ||| 2 + (s.aob == 0#32).toNat } := by
  rw [w89b]; simp

/-- Word 899. -/
theorem w899 : ros 0x899 = {
      lu := 0, mv := 0, zp := 512, zf := 6, zn := 4, tr := 3, ws := 4, sf := 7, iv := 0, al := 20, wm := 0, up := 0,
      md := 0, lb := 0, mb := 1, dg := 0, ul := 1, ur := 1, ce := 2, lx := 2, tc := 1, ry := 0, ad := 1, ab := 1,
      bb := 1, ss := 38 } := by
  decide +kernel

/-- `899 qj140-j9 E=2 0+SGN>M AL:SR4>F |U:0 V:0 W:U>WL,U>WR>0 |LS:FN,J>LSA 7 |CNTmb=0 |SS:E(13)>WFN |A:1 B:1 Z:218 ` -/
theorem x899 (e : Env) (ex : Bool) (s : S) :
    exec e (ros 0x899) ex s = .ok { s with
      M := 134217728#32, alu := 2147483648#32, aob := 134217728#32, u := 0#8, w := 0#8, F := loDig 2147483648#32,
      MB := 0#2, EDST := 3#2, mvf := 2#3, LSA := s.FN ++ s.J, ROAR := 0x21b } := by
  rw [w899]; simp

end Verif.Cpu50
