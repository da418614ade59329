import Verif.Dasd.Write
/-!
# Writing a record's data and reading the track again (C93)
-/
namespace Verif.Dasd
open Verif.Card (Res look)

/-- The byte times of some records. -/
def preTime (t : DiskType) : List Spec.Rec → Nat
  | [] => 0
  | x :: xs => Spec.fieldTime (Spec.frame t) t.g2 9 + Spec.bodyTime t x + preTime t xs

theorem othersTime_append (t : DiskType) (b : List Spec.Rec) : ∀ a : List Spec.Rec,
    Spec.othersTime t (a ++ b) = preTime t a + Spec.othersTime t b := by
  intro a
  induction a with
  | nil => simp [preTime]
  | cons x a ih => simp only [List.cons_append, Spec.othersTime, preTime, ih]; omega

theorem body_long (t : DiskType) (x : Spec.Rec) : x.key.length + x.data.length ≤ Spec.bodyTime t x := by
  unfold Spec.bodyTime Spec.fieldTime
  split
  · rename_i hk; rw [hk]; simp only [List.length_nil]; omega
  · omega

theorem bytes_len (x : Spec.Rec) : (Spec.bytes x).length = 8 + x.key.length + x.data.length := by
  simp only [Spec.bytes, Spec.count, List.length_append, List.length_cons, List.length_nil]

/-- Reading over some records. -/
theorem pre_run (s : S) (h : Std s.ty) (buf : List Nat) (hbuf : s.cbuf = some buf) (rest : List Nat) :
    ∀ (xs : List Spec.Rec) (n r pos k0 k1 rc kl dl : Nat), (∀ x ∈ xs, Spec.Fits x) → rc % 2 = n % 2 →
      buf.drop (r + s.tstart) = xs.flatMap Spec.bytes ++ rest → r ≤ pos → pos + preTime s.ty xs ≤ s.ty.bpt - 2 →
      ∃ a b rc' kl' dl' l, rc' % 2 = (n + xs.length) % 2 ∧ r + (xs.flatMap Spec.bytes).length ≤ pos + preTime s.ty xs ∧
        Goes (preTime s.ty xs) (st s .am 0 r r pos k0 k1 rc kl dl)
        (st s .am 0 (r + (xs.flatMap Spec.bytes).length) (r + (xs.flatMap Spec.bytes).length) (pos + preTime s.ty xs) a b rc' kl' dl') l := by
  intro xs
  induction xs with
  | nil =>
    intro n r pos k0 k1 rc kl dl _ hn _ hr _
    exact ⟨k0, k1, rc, kl, dl, [], hn, hr, Goes.refl _⟩
  | cons x xs ih =>
    intro n r pos k0 k1 rc kl dl hx hn hd hr hp
    unfold preTime at hp ⊢
    have hf := hx x (List.mem_cons_self ..)
    have hd1 : buf.drop (r + s.tstart) = Spec.count x ++ (x.key ++ x.data ++ (xs.flatMap Spec.bytes ++ rest)) := by
      rw [hd, List.flatMap_cons, Spec.bytes]; simp only [List.append_assoc]
    have hd2 : buf.drop (r + 8 + s.tstart) = x.key ++ x.data ++ (xs.flatMap Spec.bytes ++ rest) := by
      rw [show r + 8 + s.tstart = r + s.tstart + 8 by omega, ← List.drop_drop, hd1]; rfl
    have hd3 : buf.drop (r + 8 + x.key.length + x.data.length + s.tstart) = xs.flatMap Spec.bytes ++ rest := by
      rw [show r + 8 + x.key.length + x.data.length + s.tstart = r + 8 + s.tstart + (x.key ++ x.data).length by
        rw [List.length_append]; omega, ← List.drop_drop, hd2, List.drop_left]
    obtain ⟨a1, b1, h1⟩ := cnt1_field s h buf _ hbuf x hf r pos k0 k1 rc kl dl hd1 hr (by omega)
    have hr2 : r + 8 ≤ pos + Spec.fieldTime (Spec.frame s.ty) s.ty.g2 9 := by unfold Spec.fieldTime; omega
    obtain ⟨a2, b2, h2⟩ := body_run s h buf hbuf x hf _ (r + 8) r (pos + Spec.fieldTime (Spec.frame s.ty) s.ty.g2 9) a1 b1
      ((rc + 1) % 256) hd2 hr2 (by omega)
    have hbl := body_long s.ty x
    obtain ⟨a, b, rc', kl', dl', l, hrc, hrr, h3⟩ := ih (n + 1) (r + 8 + x.key.length + x.data.length)
      (pos + Spec.fieldTime (Spec.frame s.ty) s.ty.g2 9 + Spec.bodyTime s.ty x) a2 b2 ((rc + 1) % 256) x.key.length x.data.length
      (fun y hy => hx y (List.mem_cons_of_mem _ hy)) (by omega) hd3 (by omega) (by omega)
    have e1 : r + ((x :: xs).flatMap Spec.bytes).length = r + 8 + x.key.length + x.data.length + (xs.flatMap Spec.bytes).length := by
      rw [List.flatMap_cons, List.length_append, bytes_len]; omega
    have g := (h1.trans h2 rfl rfl).trans h3 rfl rfl
    refine ⟨a, b, rc', kl', dl', _, by rw [hrc, List.length_cons]; congr 1; omega, by omega, by
      rw [e1, show pos + (Spec.fieldTime (Spec.frame s.ty) s.ty.g2 9 + Spec.bodyTime s.ty x + preTime s.ty xs) =
        pos + Spec.fieldTime (Spec.frame s.ty) s.ty.g2 9 + Spec.bodyTime s.ty x + preTime s.ty xs by omega]
      exact g⟩

/-- The byte times of a track up to the key of the record after `pre`. -/
def countTime (t : DiskType) : List Spec.Rec → Nat
  | [] => Spec.fieldTime (Spec.frame t) t.g4 5 + Spec.fieldTime (Spec.frame t) t.g1 9
  | z :: pre => Spec.fieldTime (Spec.frame t) t.g4 5 + Spec.fieldTime (Spec.frame t) t.g1 9 + Spec.bodyTime t z + preTime t pre +
      Spec.fieldTime (Spec.frame t) t.g2 9

/-- The byte times of a track. -/
def Spec.trackTime (t : DiskType) : List Spec.Rec → Nat
  | [] => 0
  | z :: xs => Spec.time t z xs

theorem Spec.trackTime_split (t : DiskType) (pre : List Spec.Rec) (x : Spec.Rec) (post : List Spec.Rec) :
    Spec.trackTime t (pre ++ x :: post) = countTime t pre + Spec.bodyTime t x + Spec.othersTime t post := by
  cases pre with
  | nil => simp only [List.nil_append, Spec.trackTime, Spec.time, countTime]
  | cons z pre =>
    simp only [List.cons_append, Spec.trackTime, Spec.time, countTime, othersTime_append, Spec.othersTime]; omega

/-- Reading from the index up to a record's count field. -/
theorem count_up (s : S) (h : Std s.ty) (buf : List Nat) (hbuf : s.cbuf = some buf) (t r k0 k1 rc kl dl cyl hd : Nat)
    (pre : List Spec.Rec) (x : Spec.Rec) (rest : List Nat) (hx : ∀ y ∈ pre ++ [x], Spec.Fits y)
    (hb : buf.drop (u32 (s.tsize * s.head)) = Spec.home cyl hd ++ (pre.flatMap Spec.bytes ++ (Spec.count x ++ (x.key ++ x.data ++ rest))))
    (hp : countTime s.ty pre ≤ s.ty.bpt - 2) :
    ∃ r' a b rc' l, rc' % 2 = pre.length % 2 ∧ 5 + (pre.flatMap Spec.bytes).length + 8 ≤ countTime s.ty pre ∧
      Goes (countTime s.ty pre) (st s .index 0 t r 0 k0 k1 rc kl dl)
        (st { s with tstart := u32 (s.tsize * s.head) } (nextPos x.key.length) 0 (5 + (pre.flatMap Spec.bytes).length + 8) r'
          (countTime s.ty pre) a b rc' x.key.length x.data.length) l := by
  have hT0 : Spec.fieldTime (Spec.frame s.ty) s.ty.g4 5 + Spec.fieldTime (Spec.frame s.ty) s.ty.g1 9 ≤ countTime s.ty pre := by
    cases pre <;> simp only [countTime] <;> omega
  obtain ⟨a1, b1, h1⟩ := ha_field s h buf hbuf t r k0 k1 rc kl dl cyl hd _ hb (by omega)
  generalize hu : { s with tstart := u32 (s.tsize * s.head) } = u at h1 ⊢
  have ut : u.ty = s.ty := by rw [← hu]
  have us : u.tstart = u32 (s.tsize * s.head) := by rw [← hu]
  have ub : u.cbuf = some buf := by rw [← hu]; exact hbuf
  rw [← us] at hb
  rw [← ut] at hp h h1 hT0 ⊢
  have hb5 : buf.drop (5 + u.tstart) = pre.flatMap Spec.bytes ++ (Spec.count x ++ (x.key ++ x.data ++ rest)) := by
    rw [Nat.add_comm, ← List.drop_drop, hb]; rfl
  generalize hT1 : Spec.fieldTime (Spec.frame u.ty) u.ty.g4 5 = T1 at h1 hT0
  have g1 : 8 ≤ T1 := by rw [← hT1]; unfold Spec.fieldTime; omega
  cases pre with
  | nil =>
    have hc : countTime u.ty [] = T1 + Spec.fieldTime (Spec.frame u.ty) u.ty.g1 9 := by rw [← hT1]; rfl
    obtain ⟨a2, b2, h2⟩ := cnt0_field u h buf _ ub x (hx x (by simp)) 5 T1 a1 b1 rc kl dl hb5 (by omega) (by omega)
    have g := h1.trans h2 rfl rfl
    refine ⟨5, a2, b2, 0, _, rfl, ?_, by rw [hc]; exact g⟩
    rw [hc]; simp only [List.flatMap_nil, List.length_nil]; unfold Spec.fieldTime; omega
  | cons z pre =>
    have hfz := hx z (by simp)
    have hc : countTime u.ty (z :: pre) = T1 + Spec.fieldTime (Spec.frame u.ty) u.ty.g1 9 + Spec.bodyTime u.ty z + preTime u.ty pre +
      Spec.fieldTime (Spec.frame u.ty) u.ty.g2 9 := by rw [← hT1]; rfl
    have hd1 : buf.drop (5 + u.tstart) = Spec.count z ++ (z.key ++ z.data ++ (pre.flatMap Spec.bytes ++ (Spec.count x ++ (x.key ++ x.data ++ rest)))) := by
      rw [hb5, List.flatMap_cons, Spec.bytes]; simp only [List.append_assoc]
    have hd2 : buf.drop (5 + 8 + u.tstart) = z.key ++ z.data ++ (pre.flatMap Spec.bytes ++ (Spec.count x ++ (x.key ++ x.data ++ rest))) := by
      rw [show 5 + 8 + u.tstart = 5 + u.tstart + 8 by omega, ← List.drop_drop, hd1]; rfl
    have hd3 : buf.drop (5 + 8 + z.key.length + z.data.length + u.tstart) = pre.flatMap Spec.bytes ++ (Spec.count x ++ (x.key ++ x.data ++ rest)) := by
      rw [show 5 + 8 + z.key.length + z.data.length + u.tstart = 5 + 8 + u.tstart + (z.key ++ z.data).length by
        rw [List.length_append]; omega, ← List.drop_drop, hd2, List.drop_left]
    have g3 : 12 ≤ Spec.fieldTime (Spec.frame u.ty) u.ty.g1 9 := by unfold Spec.fieldTime; omega
    have g4 : 12 ≤ Spec.fieldTime (Spec.frame u.ty) u.ty.g2 9 := by unfold Spec.fieldTime; omega
    have g5 := body_long u.ty z
    obtain ⟨a2, b2, h2⟩ := cnt0_field u h buf _ ub z hfz 5 T1 a1 b1 rc kl dl hd1 (by omega) (by omega)
    obtain ⟨a3, b3, h3⟩ := body_run u h buf ub z hfz _ (5 + 8) 5 _ a2 b2 0 hd2 (by omega)
      (show (T1 + Spec.fieldTime (Spec.frame u.ty) u.ty.g1 9) + Spec.bodyTime u.ty z ≤ u.ty.bpt - 2 by omega)
    obtain ⟨a4, b4, rc4, kl4, dl4, l4, hrc, hrr, h4⟩ := pre_run u h buf ub _ pre 0 (5 + 8 + z.key.length + z.data.length)
      (T1 + Spec.fieldTime (Spec.frame u.ty) u.ty.g1 9 + Spec.bodyTime u.ty z) a3 b3 0 z.key.length z.data.length
      (fun y hy => hx y (by simp [hy])) rfl hd3 (by omega) (by omega)
    have e1 : 5 + ((z :: pre).flatMap Spec.bytes).length = 5 + 8 + z.key.length + z.data.length + (pre.flatMap Spec.bytes).length := by
      rw [List.flatMap_cons, List.length_append, bytes_len]; omega
    have hd4 : buf.drop (5 + 8 + z.key.length + z.data.length + (pre.flatMap Spec.bytes).length + u.tstart) =
        Spec.count x ++ (x.key ++ x.data ++ rest) := by
      rw [show 5 + 8 + z.key.length + z.data.length + (pre.flatMap Spec.bytes).length + u.tstart =
        5 + 8 + z.key.length + z.data.length + u.tstart + (pre.flatMap Spec.bytes).length by omega, ← List.drop_drop, hd3, List.drop_left]
    obtain ⟨a5, b5, h5⟩ := cnt1_field u h buf _ ub x (hx x (by simp)) _ _ a4 b4 rc4 kl4 dl4 hd4 hrr (by omega)
    have g := (((h1.trans h2 rfl rfl).trans h3 rfl rfl).trans h4 rfl rfl).trans h5 rfl rfl
    refine ⟨_, a5, b5, (rc4 + 1) % 256, _, by rw [List.length_cons]; omega, by rw [e1]; omega, by
      rw [hc, e1]
      exact g⟩

/-- Reading from the index up to the gap ahead of a record's data. -/
theorem data_up (s : S) (h : Std s.ty) (buf : List Nat) (hbuf : s.cbuf = some buf) (t r k0 k1 rc kl dl cyl hd : Nat)
    (pre : List Spec.Rec) (x : Spec.Rec) (rest : List Nat) (hx : ∀ y ∈ pre ++ [x], Spec.Fits y)
    (hb : buf.drop (u32 (s.tsize * s.head)) = Spec.home cyl hd ++ (pre.flatMap Spec.bytes ++ (Spec.count x ++ (x.key ++ x.data ++ rest))))
    (hp : countTime s.ty pre + Spec.bodyTime s.ty x ≤ s.ty.bpt - 2) :
    ∃ T r' a b rc' l, rc' % 2 = pre.length % 2 ∧ 5 + (pre.flatMap Spec.bytes).length + 8 + x.key.length ≤ T ∧
      T + Spec.fieldTime (Spec.frame s.ty) s.ty.g2 x.data.length = countTime s.ty pre + Spec.bodyTime s.ty x ∧
      Goes T (st s .index 0 t r 0 k0 k1 rc kl dl)
        (st { s with tstart := u32 (s.tsize * s.head) } .gap3 0 (5 + (pre.flatMap Spec.bytes).length + 8 + x.key.length) r'
          T a b rc' x.key.length x.data.length) l := by
  obtain ⟨r1, a1, b1, rc1, l1, hrc, hT, h1⟩ := count_up s h buf hbuf t r k0 k1 rc kl dl cyl hd pre x rest hx hb (by omega)
  by_cases hk : x.key = []
  · have ek : x.key.length = 0 := by rw [hk]; rfl
    rw [ek] at h1 ⊢
    refine ⟨countTime s.ty pre, r1, a1, b1, rc1, l1, hrc, by omega, ?_, h1⟩
    unfold Spec.bodyTime
    rw [if_pos hk, Nat.zero_add]
  · have hn : nextPos x.key.length = .gap2 := by
      unfold nextPos
      rw [if_neg (fun e => hk (List.length_eq_zero_iff.1 e))]
    rw [hn] at h1
    have hbt : Spec.bodyTime s.ty x = Spec.fieldTime (Spec.frame s.ty) s.ty.g2 x.key.length +
        Spec.fieldTime (Spec.frame s.ty) s.ty.g2 x.data.length := by
      unfold Spec.bodyTime
      rw [if_neg hk]
    obtain ⟨a2, b2, h2⟩ := key_field { s with tstart := u32 (s.tsize * s.head) } h buf hbuf x.key (x.data ++ rest)
      (5 + (pre.flatMap Spec.bytes).length + 8) r1 (countTime s.ty pre) a1 b1 rc1 x.data.length
      (by
        show buf.drop (5 + (pre.flatMap Spec.bytes).length + 8 + u32 (s.tsize * s.head)) = _
        rw [show 5 + (pre.flatMap Spec.bytes).length + 8 + u32 (s.tsize * s.head) =
          u32 (s.tsize * s.head) + (5 + ((pre.flatMap Spec.bytes).length + 8)) by omega, ← List.drop_drop, hb, ← List.drop_drop,
          ← List.drop_drop]
        show ((((pre.flatMap Spec.bytes ++ (Spec.count x ++ (x.key ++ x.data ++ rest)))).drop _).drop 8) = _
        rw [List.drop_left, List.append_assoc]
        rfl)
      (hx x (by simp)).key hT (by show _ + Spec.fieldTime (Spec.frame s.ty) s.ty.g2 _ ≤ s.ty.bpt - 2; omega)
    refine ⟨countTime s.ty pre + Spec.fieldTime (Spec.frame s.ty) s.ty.g2 x.key.length, r1, a2, b2, rc1, _, hrc, ?_, by omega, h1.trans h2 rfl rfl⟩
    unfold Spec.fieldTime
    omega

/-- What a drive behind a record still hands over. -/
theorem rest_run (s : S) (h : Std s.ty) (buf : List Nat) (hbuf : s.cbuf = some buf) (cyl hd : Nat)
    (pre : List Spec.Rec) (x : Spec.Rec) (post : List Spec.Rec) (rest : List Nat) (hx : ∀ y ∈ pre ++ x :: post, Spec.Fits y)
    (hts : s.tstart = u32 (s.tsize * s.head))
    (hb : buf.drop s.tstart = Spec.track cyl hd (pre ++ x :: post) ++ rest) (pos k0 k1 rc kl dl : Nat)
    (hr : 5 + ((pre ++ [x]).flatMap Spec.bytes).length ≤ pos) (hrc : rc % 2 = pre.length % 2)
    (hp : pos + Spec.othersTime s.ty post ≤ s.ty.bpt - 2) (hall : Spec.trackTime s.ty (pre ++ x :: post) + 2 ≤ s.ty.bpt) :
    ∃ m z xs, 0 < m ∧ pre ++ x :: post = z :: xs ∧ ∀ n, ∃ s',
      Goes (m + n * (s.ty.bpt + 1))
        (st s .am 0 (5 + ((pre ++ [x]).flatMap Spec.bytes).length) (5 + ((pre ++ [x]).flatMap Spec.bytes).length) pos k0 k1 rc kl dl) s'
        (Spec.others (Spec.frame s.ty) (pre.length + 1) post ++ (List.replicate n (Spec.stream (Spec.frame s.ty) cyl hd z xs)).flatten) := by
  have hdr : buf.drop (5 + ((pre ++ [x]).flatMap Spec.bytes).length + s.tstart) = post.flatMap Spec.bytes ++ (Spec.endMark ++ rest) := by
    have e : Spec.track cyl hd (pre ++ x :: post) ++ rest =
        Spec.home cyl hd ++ ((pre ++ [x]).flatMap Spec.bytes ++ (post.flatMap Spec.bytes ++ (Spec.endMark ++ rest))) := by
      rw [show pre ++ x :: post = (pre ++ [x]) ++ post by simp, Spec.track, List.flatMap_append]
      simp only [List.append_assoc]
    rw [show 5 + ((pre ++ [x]).flatMap Spec.bytes).length + s.tstart = s.tstart + (5 + ((pre ++ [x]).flatMap Spec.bytes).length) by omega,
      ← List.drop_drop, hb, e, ← List.drop_drop]
    show ((((pre ++ [x]).flatMap Spec.bytes ++ (post.flatMap Spec.bytes ++ (Spec.endMark ++ rest)))).drop _) = _
    rw [List.drop_left]
  obtain ⟨t4, r4, a4, b4, rc4, kl4, dl4, h4⟩ := others_run s h buf rest hbuf post (pre.length + 1) _ pos k0 k1 rc kl dl
    (fun y hy => hx y (by simp [hy])) (by omega) hdr hr hp
  obtain ⟨m, hm⟩ : ∃ m, pos + Spec.othersTime s.ty post + (m + 1) = s.ty.bpt + 1 :=
    ⟨s.ty.bpt - (pos + Spec.othersTime s.ty post), by omega⟩
  have h5 := fin_run s h t4 r4 a4 b4 rc4 m _ kl4 dl4 hm
  obtain ⟨z, xs, hzx⟩ : ∃ z xs, pre ++ x :: post = z :: xs := by
    cases pre with
    | nil => exact ⟨_, _, rfl⟩
    | cons z pre => exact ⟨_, _, rfl⟩
  rw [hzx] at hx hb hall
  rw [hts] at hb
  refine ⟨Spec.othersTime s.ty post + (m + 1), z, xs, by omega, hzx, fun n => ?_⟩
  obtain ⟨s', h6⟩ := revs n s h buf hbuf t4 r4 a4 b4 rc4 0 0 cyl hd z xs rest hx hb hall
  exact ⟨s', (h4.trans h5 rfl (by rw [List.append_nil])).trans h6 rfl rfl⟩

/-- **C93.**  A drive at the index whose track holds the records `pre`, `x` and `post`: after some calls it has come to the gap
ahead of the data of `x`; when it is then given a gap, the sync byte, new data of the same length and two check bytes, the
track holds `x` with the new data and is otherwise as before, as is the rest of the cylinder; and reading on hands over the
remaining records and then, in each following revolution, the changed track. -/
theorem C93_rewrite (s : S) (ht : s.ty ∈ diskTypes) (hst : s.state = .index) (hc : s.count = 0) (hpos : s.cpos = 0)
    (hstep : s.step = 0) (ham : s.ams = false) (buf rest : List Nat) (hbuf : s.cbuf = some buf) (cyl hd : Nat)
    (pre : List Spec.Rec) (x : Spec.Rec) (post : List Spec.Rec) (hu : s.tsize * s.head < 2 ^ 32)
    (hb : buf.drop (s.tsize * s.head) = Spec.track cyl hd (pre ++ x :: post) ++ rest) (hz : ∀ y ∈ pre ++ x :: post, Spec.Fits y)
    (hp : Spec.trackTime s.ty (pre ++ x :: post) + 2 ≤ s.ty.bpt) (hts : s.tsize ≤ 65536) (hbt : s.ty.bpt < s.tsize)
    (gap bs : List Io) (sy k1 k2 : Io) (hbs : bs.length = x.data.length) (hgap : ∀ io ∈ gap, io.data ≠ Spec.syncByte s.ty)
    (hsy : sy.data = Spec.syncByte s.ty) (hg : gap.length + 1 < s.ty.g2) :
    ∃ m s1 l s2 buf', (∀ io, calls io m s = .ok (s1, l)) ∧
      writes s1 ((gap ++ [sy] ++ bs ++ [k1, k2]).flatMap (held s.ty.rate)) = .ok s2 ∧
      s2.cbuf = some buf' ∧ buf'.take (s.tsize * s.head) = buf.take (s.tsize * s.head) ∧
      buf'.drop (s.tsize * s.head) = Spec.track cyl hd (pre ++ { x with data := bs.map Io.data } :: post) ++ rest ∧
      ∃ k z xs, pre ++ { x with data := bs.map Io.data } :: post = z :: xs ∧ ∀ n io, ∃ s3,
        calls io ((k + n * (s.ty.bpt + 1)) * (s.ty.rate + 1)) s2 =
          .ok (s3, Spec.others (Spec.frame s.ty) (pre.length + 1) post ++
            (List.replicate n (Spec.stream (Spec.frame s.ty) cyl hd z xs)).flatten) := by
  have h := std _ ht
  have e32 : u32 (s.tsize * s.head) = s.tsize * s.head := Nat.mod_eq_of_lt hu
  have hsp := Spec.trackTime_split s.ty pre x post
  have hT : Spec.track cyl hd (pre ++ x :: post) ++ rest =
      Spec.home cyl hd ++ (pre.flatMap Spec.bytes ++ (Spec.count x ++ (x.key ++ x.data ++ (post.flatMap Spec.bytes ++ (Spec.endMark ++ rest))))) := by
    simp [Spec.track, Spec.bytes]
  obtain ⟨T, r', a, b, rc', l, hrc, htT, hTt, hgo⟩ := data_up s h buf hbuf s.tpos s.rpos s.ck0 s.ck1 s.rcnt s.klen s.dlen cyl hd pre x
    (post.flatMap Spec.bytes ++ (Spec.endMark ++ rest)) (fun y hy => hz y (by
      rcases List.mem_append.1 hy with hy | hy
      · simp [hy]
      · simp only [List.mem_singleton] at hy; subst hy; simp))
    (by rw [e32, hb, hT]) (by omega)
  have e : st s .index 0 s.tpos s.rpos 0 s.ck0 s.ck1 s.rcnt s.klen s.dlen = { s with dirty := true } := by
    obtain ⟨⟩ := s
    simp only at hst hc hpos hstep ham
    subst hst hc hpos hstep ham
    rfl
  rw [e] at hgo
  have hft : Spec.fieldTime (Spec.frame s.ty) s.ty.g2 x.data.length = s.ty.g2 + 1 + x.data.length + 2 + (Spec.frame s.ty).tail.length := rfl
  generalize hs' : { s with tstart := u32 (s.tsize * s.head) } = s' at hgo
  have st' : s'.ty = s.ty := by rw [← hs']
  have ss' : s'.tsize = s.tsize := by rw [← hs']
  have sh' : s'.head = s.head := by rw [← hs']
  have sb' : s'.cbuf = some buf := by rw [← hs']; exact hbuf
  have sts : s'.tstart = s.tsize * s.head := by rw [← hs', e32]
  generalize hD : 5 + (pre.flatMap Spec.bytes).length + 8 + x.key.length = D at hgo htT
  -- the buffer around the data
  have hbd : buf = buf.take (s.tsize * s.head) ++ (Spec.home cyl hd ++ (pre.flatMap Spec.bytes ++ (Spec.count x ++ x.key))) ++ x.data ++
      (post.flatMap Spec.bytes ++ (Spec.endMark ++ rest)) := by
    have := List.take_append_drop (s.tsize * s.head) buf
    rw [hb, hT] at this
    simp only [List.append_assoc] at this ⊢
    exact this.symm
  generalize hP : buf.take (s.tsize * s.head) ++ (Spec.home cyl hd ++ (pre.flatMap Spec.bytes ++ (Spec.count x ++ x.key))) = P at hbd
  have hlen : s.tsize * s.head ≤ buf.length := by
    rcases Nat.lt_or_ge buf.length (s.tsize * s.head) with hlt | hle
    · rw [List.drop_of_length_le (by omega), hT] at hb
      simp [Spec.home] at hb
    · exact hle
  have hPl : P.length = D + s.tsize * s.head := by
    rw [← hP, ← hD]
    simp only [List.length_append, List.length_take, Nat.min_eq_left hlen, Spec.home, Spec.count, List.length_cons, List.length_nil]
    omega
  obtain ⟨s2, hw, hcb, hse⟩ := C92_write_data (st s' .gap3 0 D r' T a b rc' x.key.length x.data.length) (by show s'.ty ∈ _; rw [st']; exact ht) rfl rfl
    gap bs sy k1 k2 P x.data (post.flatMap Spec.bytes ++ (Spec.endMark ++ rest)) (by show s'.cbuf = _; rw [sb', ← hbd])
    (by show P.length = D + s'.tstart; rw [hPl, sts]) rfl hbs (by intro io hio; show io.data ≠ Spec.syncByte s'.ty; rw [st']; exact hgap io hio)
    (by show sy.data = Spec.syncByte s'.ty; rw [st']; exact hsy) (by show 0 + gap.length + 1 < s'.ty.g2; rw [st']; omega)
    (by show D + x.data.length < s'.tsize; rw [ss']; omega) (by show s'.tsize ≤ 65536; rw [ss']; exact hts)
    (by show T + gap.length + 1 + x.data.length + 2 ≤ s'.ty.bpt; rw [st']; omega)
  have hw' : writes (st s' .gap3 0 D r' T a b rc' x.key.length x.data.length) ((gap ++ [sy] ++ bs ++ [k1, k2]).flatMap (held s.ty.rate)) = .ok s2 := by
    rw [← hw, ← st']; rfl
  generalize hN : P ++ bs.map Io.data ++ (post.flatMap Spec.bytes ++ (Spec.endMark ++ rest)) = N at hcb
  have hse' : s2 = st { s' with cbuf := some N } .am 0 (D + x.data.length) (D + x.data.length) (T + (gap.length + 1 + x.data.length + 2)) 0 s2.ck1 rc'
      x.key.length x.data.length := by
    rw [hcb] at hse
    exact hse
  have hNt : N.take (s.tsize * s.head) = buf.take (s.tsize * s.head) := by
    rw [← hN, ← hP]
    simp only [List.append_assoc]
    rw [List.take_append_of_le_length (by rw [List.length_take]; omega), List.take_take, Nat.min_self]
  have hNd : N.drop (s.tsize * s.head) = Spec.track cyl hd (pre ++ { x with data := bs.map Io.data } :: post) ++ rest := by
    rw [← hN, ← hP]
    simp only [List.append_assoc]
    rw [List.drop_append_of_le_length (by rw [List.length_take]; omega), List.drop_of_length_le (by rw [List.length_take]; omega)]
    simp [Spec.track, Spec.bytes, Spec.count, hbs]
  have hfit : ∀ y ∈ pre ++ { x with data := bs.map Io.data } :: post, Spec.Fits y := by
    intro y hy
    rcases List.mem_append.1 hy with hy | hy
    · exact hz y (by simp [hy])
    · rcases List.mem_cons.1 hy with hy | hy
      · have hx := hz x (by simp)
        subst hy
        exact ⟨hx.cyl, hx.hd, hx.live, hx.key, by rw [List.length_map, hbs]; exact hx.data⟩
      · exact hz y (by simp [hy])
  have hbody : Spec.bodyTime s.ty { x with data := bs.map Io.data } = Spec.bodyTime s.ty x := by
    unfold Spec.bodyTime
    simp only [List.length_map, hbs]
  have hE : 5 + ((pre ++ [{ x with data := bs.map Io.data }]).flatMap Spec.bytes).length = D + x.data.length := by
    rw [List.flatMap_append, List.length_append, List.flatMap_singleton, bytes_len, ← hD]
    simp only [List.length_map, hbs]
    omega
  have hrun := rest_run { s' with cbuf := some N } (by show Std s'.ty; rw [st']; exact h) N rfl cyl hd pre { x with data := bs.map Io.data } post rest hfit
    (by show s'.tstart = u32 (s'.tsize * s'.head); rw [sts, ss', sh', e32]) (by show N.drop s'.tstart = _; rw [sts]; exact hNd)
    (T + (gap.length + 1 + x.data.length + 2)) 0 s2.ck1 rc' x.key.length x.data.length (by rw [hE]; omega) hrc
    (by show _ + Spec.othersTime s'.ty post ≤ s'.ty.bpt - 2; rw [st']; omega)
    (by
      show Spec.trackTime s'.ty _ + 2 ≤ s'.ty.bpt
      rw [st', Spec.trackTime_split, hbody]; omega)
  rw [hE] at hrun
  obtain ⟨k, z, xs, hk, hzx, hrun⟩ := hrun
  refine ⟨T * (s.ty.rate + 1), _, l, s2, N, fun io => calls_of_goes s _ T l hstep (by omega) hgo io, hw', hcb, hNt, hNd, k, z, xs, hzx, ?_⟩
  intro n io
  obtain ⟨s3, h3⟩ := hrun n
  refine ⟨s3, ?_⟩
  rw [← hse'] at h3
  have t2 : s2.ty = s.ty := by rw [hse']; exact st'
  have e2 : { s2 with dirty := true } = s2 := by rw [hse']; rfl
  have := calls_of_goes s2 s3 _ _ (by rw [hse']; rfl) (by omega) (e2.symm ▸ h3) io
  have e4 : { s' with cbuf := some N }.ty = s.ty := st'
  rw [e4, t2] at this
  exact this

/-- The hypotheses of C93 are met by record zero of every head of every freshly formatted drive, for any eight bytes written. -/
theorem C93_fresh_drive (t : DiskType) (ht : t ∈ diskTypes) (file : List Nat) (hd : Nat) (hh : hd < t.heads) (bs : List Io)
    (hbs : bs.length = 8) :
    ∃ s m s1 l s2 buf' rest, attach (fresh t) file true = .ok s ∧ (∀ io, calls io m { s with head := hd } = .ok (s1, l)) ∧
      writes s1 (([(⟨0, false, false⟩ : Io)] ++ [(⟨Spec.syncByte t, false, false⟩ : Io)] ++ bs ++ [(⟨0, false, false⟩ : Io), ⟨0, false, false⟩]).flatMap (held t.rate)) = .ok s2 ∧
      s2.cbuf = some buf' ∧
      buf'.drop (trackSize t * hd) =
        Spec.track 0 hd ({ Spec.r0 0 hd with data := bs.map Io.data } :: (freshRecs true [] 0 hd).tail) ++ rest := by
  obtain ⟨s, b0, rest, hr, hty, h1, h2, h3, h4, h5, hb, hts, hu, hd', hfit, htime⟩ := fresh_track t ht file hd hh
  subst hty
  have sn := sane _ ht
  have hs : (0 : Nat) ≠ Spec.syncByte s.ty ∧ 1 + 1 < s.ty.g2 := by
    have : ∀ t ∈ diskTypes, (0 : Nat) ≠ Spec.syncByte t ∧ 1 + 1 < t.g2 := by decide
    exact this _ ht
  obtain ⟨m, s1, l, s2, buf', q1, q2, q3, q4, q5, -⟩ := C93_rewrite { s with head := hd } ht h1 h2 h3 h4 h5 b0 rest hb 0 hd [] (Spec.r0 0 hd)
    (freshRecs true [] 0 hd).tail (by show s.tsize * hd < _; rw [hts]; exact hu)
    (by show b0.drop (s.tsize * hd) = _; rw [hts]; exact hd') hfit htime (by show s.tsize ≤ _; omega) (by show s.ty.bpt < s.tsize; omega)
    [⟨0, false, false⟩] bs ⟨Spec.syncByte s.ty, false, false⟩ ⟨0, false, false⟩ ⟨0, false, false⟩
    (by rw [hbs]; rfl) (by intro io h; simp only [List.mem_singleton] at h; subst h; exact hs.1) rfl hs.2
  refine ⟨s, m, s1, l, s2, buf', rest, hr, q1, q2, q3, ?_⟩
  rw [← hts]
  exact q5

end Verif.Dasd
