import Verif.Cpu50.Words0

/-!
# Model 2050: words of the instruction fetch

Written by a script from the model itself; each lemma is the effect of one word of `/repo/src/model2050/ros.txt`
on the processor, with the text of the word as the listing names its fields.
-/

namespace Verif.Cpu50

attribute [local simp] exec needsChan front condA condB combine abBits nextBase leftBus leftIn rightBus rightIn uBus vBus ceB moverL moverR adCin ivStep smif dgStep cinW adder adStep lateB alStep ssEarly trStep protect ssLate wsStep wmStep upStep finish Out.bind ceBit fpStats Nat.testBit_eq_decide_div_mod_eq mov_whole

/-- Word 14a. -/
theorem w14a : ros 0x14a = {
      lu := 0, mv := 0, zp := 320, zf := 3, zn := 4, tr := 0, ws := 4, sf := 7, iv := 0, al := 0, wm := 11, up := 2,
      md := 0, lb := 0, mb := 0, dg := 0, ul := 1, ur := 1, ce := 15, lx := 0, tc := 1, ry := 0, ad := 1, ab := 1,
      bb := 28, ss := 39 } := by
  decide +kernel

/-- `14a qt110-c7 E=f 0+0>T |U:0 V:0 W:U>WL,U>WR>W>G |LS:FN,J>LSA 7 |SS:E(23)->LSFN |A:1 B:IVA Z:14c ` -/
theorem x14a (e : Env) (ex : Bool) (s : S) :
    exec e (ros 0x14a) ex s = .ok { s with
      alu := 0#32, aob := 0#32, u := 0#8, w := 0#8, G := 0#8, EDST := 3#2, FN := 3#2, LSA := 3#2 ++ s.J,
      G1NEG := false, G2NEG := false, ROAR := 332 ||| 2 + s.IVA.toNat } := by
  rw [w14a]; simp

/-- Word 146. -/
theorem w146 : ros 0x146 = {
      lu := 0, mv := 0, zp := 320, zf := 3, zn := 4, tr := 0, ws := 4, sf := 7, iv := 0, al := 0, wm := 11, up := 2,
      md := 0, lb := 0, mb := 0, dg := 0, ul := 1, ur := 1, ce := 15, lx := 0, tc := 1, ry := 0, ad := 1, ab := 1,
      bb := 28, ss := 39 } := by
  decide +kernel

/-- `146 qt105-c7 E=f 0+0>T |U:0 V:0 W:U>WL,U>WR>W>G |LS:FN,J>LSA 7 |SS:E(23)->LSFN |A:1 B:IVA Z:14c ` -/
theorem x146 (e : Env) (ex : Bool) (s : S) :
    exec e (ros 0x146) ex s = .ok { s with
      alu := 0#32, aob := 0#32, u := 0#8, w := 0#8, G := 0#8, EDST := 3#2, FN := 3#2, LSA := 3#2 ++ s.J,
      G1NEG := false, G2NEG := false, ROAR := 332 ||| 2 + s.IVA.toNat } := by
  rw [w146]; simp

/-- Word 148. -/
theorem w148 : ros 0x148 = {
      lu := 0, mv := 0, zp := 384, zf := 1, zn := 7, tr := 25, ws := 4, sf := 7, iv := 0, al := 0, wm := 3, up := 1,
      md := 0, lb := 0, mb := 1, dg := 0, ul := 1, ur := 1, ce := 15, lx := 4, tc := 1, ry := 0, ad := 1, ab := 12,
      bb := 28, ss := 39 } := by
  decide +kernel

/-- `148 qt110-g7 E=f 0+LRL>MLJK |U:0 V:0 W:U>WL,U>WR>W67>LB |LS:FN,J>LSA 7 |CNTmb=3 |SS:E(23)->LSFN |A:1SYLS B:IVA Z:184 B|(A=1)>B` -/
theorem x148 (e : Env) (ex : Bool) (s : S) :
    exec e (ros 0x148) ex s = .ok { s with
      L := s.L <<< 16, M := s.L <<< 16, alu := s.L <<< 16, aob := s.L <<< 16, u := 0#8, w := 0#8,
      MD := BitVec.setWidth 4 (s.L <<< 16 >>> 12), J := BitVec.setWidth 4 (s.L <<< 16 >>> 16), MB := 3#2, LB := 0#2,
      EDST := 3#2, ILC := ilcOf (s.L <<< 16), FN := 3#2, LSA := 3#2 ++ BitVec.setWidth 4 (s.L <<< 16 >>> 16),
      St := { s.St with s0 := BitVec.setWidth 4 (s.L <<< 16 >>> 16) == 0#4, s1 := BitVec.setWidth 4 (s.L <<< 16 >>> 12) == 0#4 },
      SYLS1 := BitVec.setWidth 4 (s.L <<< 16 >>> 12) &&& 12#4 == 0#4, REFETCH := false,
      ROAR := 388 ||| 2 * s.SYLS1.toNat + (s.IVA || s.SYLS1).toNat } := by
  rw [w148]; simp

/-- Word 149. -/
theorem w149 : ros 0x149 = {
      lu := 0, mv := 0, zp := 320, zf := 3, zn := 3, tr := 0, ws := 4, sf := 7, iv := 0, al := 0, wm := 3, up := 1,
      md := 0, lb := 0, mb := 1, dg := 0, ul := 1, ur := 1, ce := 15, lx := 0, tc := 1, ry := 0, ad := 1, ab := 0,
      bb := 28, ss := 39 } := by
  decide +kernel

/-- `149 qt110-l7 E=f 0+0>T |U:0 V:0 W:U>WL,U>WR>W67>LB |LS:FN,J>LSA 7 |CNTmb=3 |SS:E(23)->LSFN |A:0 B:IVA Z:14c A|(B=1)>A` -/
theorem x149 (e : Env) (ex : Bool) (s : S) :
    exec e (ros 0x149) ex s = .ok { s with
      alu := 0#32, aob := 0#32, u := 0#8, w := 0#8, MB := 3#2, LB := 0#2, EDST := 3#2, FN := 3#2, LSA := 3#2 ++ s.J,
      ROAR := 332 ||| 2 * s.IVA.toNat + s.IVA.toNat } := by
  rw [w149]; simp

/-- Word 145. -/
theorem w145 : ros 0x145 = {
      lu := 0, mv := 0, zp := 320, zf := 3, zn := 3, tr := 0, ws := 4, sf := 7, iv := 0, al := 0, wm := 3, up := 1,
      md := 0, lb := 0, mb := 1, dg := 0, ul := 1, ur := 1, ce := 15, lx := 0, tc := 1, ry := 0, ad := 1, ab := 0,
      bb := 28, ss := 39 } := by
  decide +kernel

/-- `145 qt105-l7 E=f 0+0>T |U:0 V:0 W:U>WL,U>WR>W67>LB |LS:FN,J>LSA 7 |CNTmb=3 |SS:E(23)->LSFN |A:0 B:IVA Z:14c A|(B=1)>A` -/
theorem x145 (e : Env) (ex : Bool) (s : S) :
    exec e (ros 0x145) ex s = .ok { s with
      alu := 0#32, aob := 0#32, u := 0#8, w := 0#8, MB := 3#2, LB := 0#2, EDST := 3#2, FN := 3#2, LSA := 3#2 ++ s.J,
      ROAR := 332 ||| 2 * s.IVA.toNat + s.IVA.toNat } := by
  rw [w145]; simp

/-- Word 144. -/
theorem w144 : ros 0x144 = {
      lu := 0, mv := 0, zp := 320, zf := 2, zn := 4, tr := 0, ws := 3, sf := 6, iv := 7, al := 0, wm := 0, up := 2,
      md := 0, lb := 0, mb := 0, dg := 0, ul := 1, ur := 1, ce := 14, lx := 0, tc := 1, ry := 0, ad := 1, ab := 56,
      bb := 0, ss := 24 } := by
  decide +kernel

/-- `144 qt105-g7 E=e 0+0>T |U:0 V:0 W:U>WL,U>WR>0 |LS:WS,E>LSA LS>L>LS |IV:IA+0/2>A |SS:E>S47 |A:I-FETCH B:0 Z:148 ` -/
theorem x144 (e : Env) (ex : Bool) (s : S) :
    exec e (ros 0x144) ex s = .ok { s with
      L := s.LS 30#6, SAR := ifAddr s.REFETCH s.IA, alu := 0#32, aob := 0#32, u := 0#8, w := 0#8, EDST := 3#2,
      LSA := 30#6, St := { s.St with s4 := true, s5 := true, s6 := true, s7 := false },
      IVA := s.IVA || decide (e.memMax < ifAddr s.REFETCH s.IA),
      initMem := s.initMem || !decide (e.memMax < ifAddr s.REFETCH s.IA),
      ROAR := 328 ||| 2 * (ex || s.IA &&& 2#32 == 0#32).toNat + (ex || s.IA &&& 2#32 != 0#32 && s.REFETCH).toNat } := by
  rw [w144]; simp

/-- Word 102. -/
theorem w102 : ros 0x102 = {
      lu := 0, mv := 0, zp := 448, zf := 3, zn := 3, tr := 21, ws := 4, sf := 7, iv := 0, al := 6, wm := 3, up := 1,
      md := 0, lb := 0, mb := 1, dg := 0, ul := 1, ur := 1, ce := 15, lx := 0, tc := 1, ry := 1, ad := 1, ab := 5,
      bb := 28, ss := 39 } := by
  decide +kernel

/-- `102 qt120-g3 E=f R+0>IA AL:IA>H |U:0 V:0 W:U>WL,U>WR>W67>LB |LS:FN,J>LSA 7 |CNTmb=3 |SS:E(23)->LSFN |A:S3 B:IVA Z:1cc A|(B=1)>A` -/
theorem x102 (e : Env) (ex : Bool) (s : S) :
    exec e (ros 0x102) ex s = .ok { s with
      H := s.H &&& 4278190080#32 ||| s.IA &&& 16777215#32, IA := s.R &&& 16777215#32, alu := s.R, aob := s.R, u := 0#8,
      w := 0#8, MB := 3#2, LB := 0#2, EDST := 3#2, FN := 3#2, LSA := 3#2 ++ s.J,
      ROAR := 460 ||| 2 * (s.St.s3 || s.IVA).toNat + s.IVA.toNat } := by
  rw [w102]; simp

/-- Word 103. -/
theorem w103 : ros 0x103 = {
      lu := 0, mv := 0, zp := 384, zf := 4, zn := 4, tr := 21, ws := 4, sf := 7, iv := 0, al := 0, wm := 0, up := 2,
      md := 0, lb := 0, mb := 0, dg := 0, ul := 1, ur := 1, ce := 0, lx := 0, tc := 1, ry := 1, ad := 1, ab := 0,
      bb := 1, ss := 45 } := by
  decide +kernel

/-- `103 qt200-e1 E=0 R+0>IA |U:0 V:0 W:U>WL,U>WR>0 |LS:FN,J>LSA 7 |SS:1->REFETCH |A:0 B:1 Z:190 ` -/
theorem x103 (e : Env) (ex : Bool) (s : S) :
    exec e (ros 0x103) ex s = .ok { s with
      IA := s.R &&& 16777215#32, alu := s.R, aob := s.R, u := 0#8, w := 0#8, EDST := 3#2, LSA := s.FN ++ s.J,
      REFETCH := true, ROAR := 0x191 } := by
  rw [w103]; simp

/-- Word 14e. -/
theorem w14e : ros 0x14e = {
      lu := 0, mv := 0, zp := 384, zf := 2, zn := 4, tr := 25, ws := 3, sf := 4, iv := 0, al := 30, wm := 2, up := 0,
      md := 0, lb := 1, mb := 0, dg := 0, ul := 1, ur := 0, ce := 14, lx := 0, tc := 1, ry := 0, ad := 1, ab := 0,
      bb := 0, ss := 24 } := by
  decide +kernel

/-- `14e qt115-c3 E=e 0+0>MLJK AL:D |U:0 V:0 W:U>WL,E>WR>W67>MB |LS:WS,E>LSA L>LS |CNTlb=0 |SS:E>S47 |A:0 B:0 Z:188 ` -/
theorem x14e (e : Env) (ex : Bool) (s : S) :
    exec e (ros 0x14e) ex s = .ok { s with
      L := s.SDR, M := s.SDR, alu := 0#32, aob := s.SDR, u := 0#8, w := 14#8, MD := BitVec.setWidth 4 (s.SDR >>> 12),
      J := BitVec.setWidth 4 (s.SDR >>> 16), MB := 2#2, LB := 0#2, EDST := 3#2, ILC := ilcOf s.SDR, LSA := 30#6,
      St := { s.St with s0 := BitVec.setWidth 4 (s.SDR >>> 16) == 0#4, s1 := BitVec.setWidth 4 (s.SDR >>> 12) == 0#4, s4 := true, s5 := true, s6 := true, s7 := false },
      SYLS1 := BitVec.setWidth 4 (s.SDR >>> 12) &&& 12#4 == 0#4, REFETCH := false, ROAR := 0x188,
      LS := lsPut s.LS (30#6) s.SDR } := by
  rw [w14e]; simp

/-- Word 14c. -/
theorem w14c : ros 0x14c = {
      lu := 0, mv := 0, zp := 384, zf := 2, zn := 4, tr := 7, ws := 4, sf := 7, iv := 0, al := 30, wm := 11, up := 3,
      md := 0, lb := 1, mb := 0, dg := 0, ul := 1, ur := 1, ce := 14, lx := 0, tc := 1, ry := 0, ad := 1, ab := 0,
      bb := 1, ss := 15 } := by
  decide +kernel

/-- `14c qt115-q3 E=e 0+0>L AL:D |U:0 V:0 W:U>WL,U>WR>W>G |LS:FN,J>LSA 7 |CNTlb+ |SS:B0,1SYL |A:0 B:1 Z:188 ` -/
theorem x14c (e : Env) (ex : Bool) (s : S) :
    exec e (ros 0x14c) ex s = .ok { s with
      L := s.SDR, alu := 0#32, aob := s.SDR, u := 0#8, w := 0#8, G := 0#8, LB := s.LB + 1#2, EDST := 3#2,
      LSA := s.FN ++ s.J, St := { s.St with s1 := s.SDR &&& 4026531840#32 == 0#32 },
      SYLS1 := s.SDR &&& 49152#32 == 0#32, G1NEG := false, G2NEG := false, ROAR := 0x189 } := by
  rw [w14c]; simp

/-- Word 14d. -/
theorem w14d : ros 0x14d = {
      lu := 0, mv := 0, zp := 384, zf := 1, zn := 4, tr := 0, ws := 4, sf := 7, iv := 0, al := 0, wm := 0, up := 2,
      md := 0, lb := 0, mb := 0, dg := 0, ul := 1, ur := 1, ce := 0, lx := 0, tc := 1, ry := 0, ad := 1, ab := 0,
      bb := 28, ss := 0 } := by
  decide +kernel

/-- `14d qt115-n7 E=0 0+0>T |U:0 V:0 W:U>WL,U>WR>0 |LS:FN,J>LSA 7 |A:0 B:IVA Z:184 ` -/
theorem x14d (e : Env) (ex : Bool) (s : S) :
    exec e (ros 0x14d) ex s = .ok { s with
      alu := 0#32, aob := 0#32, u := 0#8, w := 0#8, EDST := 3#2, LSA := s.FN ++ s.J, ROAR := 388 ||| s.IVA.toNat } := by
  rw [w14d]; simp

/-- Word 184. -/
theorem w184 : ros 0x184 = {
      lu := 0, mv := 0, zp := 384, zf := 2, zn := 4, tr := 26, ws := 3, sf := 4, iv := 0, al := 30, wm := 11, up := 2,
      md := 0, lb := 0, mb := 1, dg := 0, ul := 1, ur := 1, ce := 14, lx := 0, tc := 1, ry := 0, ad := 1, ab := 0,
      bb := 0, ss := 15 } := by
  decide +kernel

/-- `184 qt115-j6 E=e 0+0>MHL AL:D |U:0 V:0 W:U>WL,U>WR>W>G |LS:WS,E>LSA L>LS |CNTmb- |SS:B0,1SYL |A:0 B:0 Z:188 ` -/
theorem x184 (e : Env) (ex : Bool) (s : S) :
    exec e (ros 0x184) ex s = .ok { s with
      L := s.SDR, M := s.M &&& 4294901760#32 ||| s.SDR >>> 16, alu := 0#32, aob := s.SDR, u := 0#8, w := 0#8, G := 0#8,
      MD := BitVec.setWidth 4 (s.SDR >>> 28), MB := s.MB - 1#2, EDST := 3#2, LSA := 30#6,
      St := { s.St with s1 := s.SDR &&& 4026531840#32 == 0#32 }, SYLS1 := s.SDR &&& 49152#32 == 0#32, G1NEG := false,
      G2NEG := false, ROAR := 0x188, LS := lsPut s.LS (30#6) s.SDR } := by
  rw [w184]; simp

/-- Word 187. -/
theorem w187 : ros 0x187 = {
      lu := 0, mv := 0, zp := 256, zf := 6, zn := 0, tr := 27, ws := 4, sf := 7, iv := 5, al := 0, wm := 11, up := 3,
      md := 0, lb := 1, mb := 0, dg := 0, ul := 1, ur := 1, ce := 15, lx := 0, tc := 1, ry := 2, ad := 1, ab := 0,
      bb := 0, ss := 19 } := by
  decide +kernel

/-- `187 qt115-g4 E=f M+0>MD |U:0 V:0 W:U>WL,U>WR>W>G |LS:FN,J>LSA 7 |CNTlb+ |IV:IA_2/4 |SS:E->BS |A:0 B:0 Z:100 M(03)>>ROAR` -/
theorem x187 (e : Env) (ex : Bool) (s : S) :
    exec e (ros 0x187) ex s = .ok { s with
      IA := if s.ILC &&& 2#2 = 0#2 then s.IA + 2#32 else s.IA + 4#32, alu := s.M, aob := s.M, u := 0#8, w := 0#8,
      G := 0#8, MD := BitVec.setWidth 4 (s.M >>> 20), BS := 15#4, LB := s.LB + 1#2, EDST := 3#2, LSA := s.FN ++ s.J,
      G1NEG := false, G2NEG := false, ROAR := 256 ||| nib s.M 7 <<< 2 } := by
  rw [w187]; simp

/-- Word 188. -/
theorem w188 : ros 0x188 = {
      lu := 0, mv := 2, zp := 256, zf := 6, zn := 0, tr := 27, ws := 6, sf := 6, iv := 5, al := 0, wm := 1, up := 3,
      md := 0, lb := 1, mb := 1, dg := 0, ul := 1, ur := 2, ce := 15, lx := 0, tc := 1, ry := 2, ad := 1, ab := 63,
      bb := 3, ss := 19 } := by
  decide +kernel

/-- `188 qt115-c8 E=f M+0>MD |U:0 V:MMB>V W:U>WL,V>WR>W>MMB |LS:FN,MD>LSA LS>L>LS |CNTlbmb+ |IV:IA_2/4 |SS:E->BS |A:RX.S0 B:S1 Z:100 M(03)>>ROAR` -/
theorem x188 (e : Env) (ex : Bool) (s : S) :
    exec e (ros 0x188) ex s = .ok { s with
      L := s.LS (s.FN ++ s.MD), M := putByte s.M s.MB (byteOf s.M s.MB &&& 15#8),
      IA := if s.ILC &&& 2#2 = 0#2 then s.IA + 2#32 else s.IA + 4#32, alu := s.M, aob := s.M, u := 0#8,
      w := byteOf s.M s.MB &&& 15#8, MD := BitVec.setWidth 4 (s.M >>> 20), BS := 15#4, MB := s.MB + 1#2,
      LB := s.LB + 1#2, EDST := if byteOf s.M s.MB &&& 252#8 = 32#8 then BitVec.setWidth 2 (byteOf s.M s.MB) else 3#2,
      LSA := s.FN ++ s.MD,
      ROAR := 256 ||| nib s.M 7 <<< 2 ||| 2 * (s.St.s0 && s.M &&& 3221225472#32 == 1073741824#32).toNat + s.St.s1.toNat } := by
  rw [w188]; simp

/-- Word 189. -/
theorem w189 : ros 0x189 = {
      lu := 0, mv := 0, zp := 384, zf := 6, zn := 4, tr := 25, ws := 4, sf := 7, iv := 0, al := 0, wm := 0, up := 2,
      md := 0, lb := 0, mb := 0, dg := 0, ul := 1, ur := 1, ce := 14, lx := 4, tc := 1, ry := 0, ad := 1, ab := 12,
      bb := 1, ss := 24 } := by
  decide +kernel

/-- `189 qt116-q4 E=e 0+LRL>MLJK |U:0 V:0 W:U>WL,U>WR>0 |LS:FN,J>LSA 7 |SS:E>S47 |A:1SYLS B:1 Z:198 ` -/
theorem x189 (e : Env) (ex : Bool) (s : S) :
    exec e (ros 0x189) ex s = .ok { s with
      L := s.L <<< 16, M := s.L <<< 16, alu := s.L <<< 16, aob := s.L <<< 16, u := 0#8, w := 0#8,
      MD := BitVec.setWidth 4 (s.L <<< 16 >>> 12), J := BitVec.setWidth 4 (s.L <<< 16 >>> 16), EDST := 3#2,
      ILC := ilcOf (s.L <<< 16), LSA := s.FN ++ BitVec.setWidth 4 (s.L <<< 16 >>> 16),
      St := { s.St with s0 := BitVec.setWidth 4 (s.L <<< 16 >>> 16) == 0#4, s1 := BitVec.setWidth 4 (s.L <<< 16 >>> 12) == 0#4, s4 := true, s5 := true, s6 := true, s7 := false },
      SYLS1 := BitVec.setWidth 4 (s.L <<< 16 >>> 12) &&& 12#4 == 0#4, REFETCH := false,
      ROAR := 408 ||| 2 * s.SYLS1.toNat + 1 } := by
  rw [w189]; simp

/-- Word 199. -/
theorem w199 : ros 0x199 = {
      lu := 0, mv := 0, zp := 320, zf := 3, zn := 4, tr := 0, ws := 4, sf := 7, iv := 7, al := 0, wm := 0, up := 0,
      md := 0, lb := 1, mb := 0, dg := 0, ul := 1, ur := 1, ce := 15, lx := 0, tc := 1, ry := 0, ad := 1, ab := 0,
      bb := 1, ss := 0 } := by
  decide +kernel

/-- `199 qt115-n6 E=f 0+0>T |U:0 V:0 W:U>WL,U>WR>0 |LS:FN,J>LSA 7 |CNTlb=0 |IV:IA+0/2>A |A:0 B:1 Z:14c ` -/
theorem x199 (e : Env) (ex : Bool) (s : S) :
    exec e (ros 0x199) ex s = .ok { s with
      SAR := ifAddr s.REFETCH s.IA, alu := 0#32, aob := 0#32, u := 0#8, w := 0#8, LB := 0#2, EDST := 3#2,
      LSA := s.FN ++ s.J, IVA := s.IVA || decide (e.memMax < ifAddr s.REFETCH s.IA),
      initMem := s.initMem || !decide (e.memMax < ifAddr s.REFETCH s.IA), ROAR := 0x14d } := by
  rw [w199]; simp

/-- Word 19b. -/
theorem w19b : ros 0x19b = {
      lu := 0, mv := 0, zp := 256, zf := 6, zn := 0, tr := 27, ws := 4, sf := 7, iv := 5, al := 0, wm := 0, up := 2,
      md := 0, lb := 0, mb := 0, dg := 0, ul := 1, ur := 1, ce := 15, lx := 0, tc := 1, ry := 2, ad := 1, ab := 0,
      bb := 0, ss := 19 } := by
  decide +kernel

/-- `19b qt115-q5 E=f M+0>MD |U:0 V:0 W:U>WL,U>WR>0 |LS:FN,J>LSA 7 |IV:IA_2/4 |SS:E->BS |A:0 B:0 Z:100 M(03)>>ROAR` -/
theorem x19b (e : Env) (ex : Bool) (s : S) :
    exec e (ros 0x19b) ex s = .ok { s with
      IA := if s.ILC &&& 2#2 = 0#2 then s.IA + 2#32 else s.IA + 4#32, alu := s.M, aob := s.M, u := 0#8, w := 0#8,
      MD := BitVec.setWidth 4 (s.M >>> 20), BS := 15#4, EDST := 3#2, LSA := s.FN ++ s.J,
      ROAR := 256 ||| nib s.M 7 <<< 2 } := by
  rw [w19b]; simp

/-- Word 1cc. -/
theorem w1cc : ros 0x1cc = {
      lu := 0, mv := 0, zp := 384, zf := 2, zn := 7, tr := 25, ws := 3, sf := 4, iv := 0, al := 30, wm := 11, up := 2,
      md := 0, lb := 0, mb := 1, dg := 0, ul := 1, ur := 1, ce := 14, lx := 0, tc := 1, ry := 0, ad := 1, ab := 29,
      bb := 0, ss := 24 } := by
  decide +kernel

/-- `1cc qt120-j5 E=e 0+0>MLJK AL:D |U:0 V:0 W:U>WL,U>WR>W>G |LS:WS,E>LSA L>LS |CNTmb- |SS:E>S47 |A:R(31) B:0 Z:188 B|(A=1)>B` -/
theorem x1cc (e : Env) (ex : Bool) (s : S) :
    exec e (ros 0x1cc) ex s = .ok { s with
      L := s.SDR, M := s.SDR, alu := 0#32, aob := s.SDR, u := 0#8, w := 0#8, G := 0#8,
      MD := BitVec.setWidth 4 (s.SDR >>> 12), J := BitVec.setWidth 4 (s.SDR >>> 16), MB := s.MB - 1#2, EDST := 3#2,
      ILC := ilcOf s.SDR, LSA := 30#6,
      St := { s.St with s0 := BitVec.setWidth 4 (s.SDR >>> 16) == 0#4, s1 := BitVec.setWidth 4 (s.SDR >>> 12) == 0#4, s4 := true, s5 := true, s6 := true, s7 := false },
      SYLS1 := BitVec.setWidth 4 (s.SDR >>> 12) &&& 12#4 == 0#4, REFETCH := false, G1NEG := false, G2NEG := false,
      ROAR := 392 ||| 2 * (s.R &&& 1#32 != 0#32).toNat + (s.R &&& 1#32 != 0#32).toNat, LS := lsPut s.LS (30#6) s.SDR } := by
  rw [w1cc]; simp

/-- Word 1ce. -/
theorem w1ce : ros 0x1ce = {
      lu := 0, mv := 0, zp := 384, zf := 2, zn := 4, tr := 7, ws := 4, sf := 7, iv := 0, al := 30, wm := 11, up := 3,
      md := 0, lb := 1, mb := 0, dg := 0, ul := 1, ur := 1, ce := 0, lx := 0, tc := 1, ry := 0, ad := 1, ab := 29,
      bb := 1, ss := 15 } := by
  decide +kernel

/-- `1ce qt120-q5 E=0 0+0>L AL:D |U:0 V:0 W:U>WL,U>WR>W>G |LS:FN,J>LSA 7 |CNTlb+ |SS:B0,1SYL |A:R(31) B:1 Z:188 ` -/
theorem x1ce (e : Env) (ex : Bool) (s : S) :
    exec e (ros 0x1ce) ex s = .ok { s with
      L := s.SDR, alu := 0#32, aob := s.SDR, u := 0#8, w := 0#8, G := 0#8, LB := s.LB + 1#2, EDST := 3#2,
      LSA := s.FN ++ s.J, St := { s.St with s1 := s.SDR &&& 4026531840#32 == 0#32 },
      SYLS1 := s.SDR &&& 49152#32 == 0#32, G1NEG := false, G2NEG := false,
      ROAR := 392 ||| 2 * (s.R &&& 1#32 != 0#32).toNat + 1 } := by
  rw [w1ce]; simp

end Verif.Cpu50
