import Verif.Tape.Refine
import Verif.Tape.Safe
/-!
# Properties of the tape layer

`attach t (images f items ++ rest) f ring den` mounts a host file that holds `items` in layout `f`, followed by the
bytes `rest`.  `opRun` is what the code does for a sequence of operations, `specRun` (Spec.lean) what the row of items
says it should.  `junk` is the content of an uninitialised variable of tape_finish_rec and of the callers' data cells;
`fuel` bounds loops: the results are the same for every larger `fuel` (`opRun_mono`).
-/
namespace Verif.Tape

/-- A drive before anything was mounted. -/
def newDrive : Tape :=
  { b := { opened := false, writable := false, file := [], pos := 0, posBuff := 0, lenBuff := 0, dirty := false,
           eot := false, bot := false, buffer := List.replicate W 0 }
    fmt := .tap, ring := false, den1600 := false, mark := false, func := .none, posFrame := 0, lrecl := 0, orecl := 0
    parity := false, srec := 0 }

theorem newDrive_buffer : newDrive.b.buffer.length = W := List.length_replicate

/-- The tape as mounted. -/
def mounted (items : List Item) (rest : List Nat) : Z :=
  { before := [], after := items, isEnd := rest.isEmpty, eot := false, justRead := false }

theorem specRun_append (f : Fmt) (a b : List Op) : ∀ z, specRun f (a ++ b) z =
    ((specRun f a z).1 ++ (specRun f b (specRun f a z).2).1, (specRun f b (specRun f a z).2).2) := by
  induction a with
  | nil => intro z; rfl
  | cons o l ih => intro z; simp [specRun, ih]

theorem OpsPre_append (f : Fmt) (rg : Bool) (a b : List Op) : ∀ z, OpsPre f rg (a ++ b) z ↔
    OpsPre f rg a z ∧ OpsPre f rg b (specRun f a z).2 := by
  induction a with
  | nil => intro z; simp [OpsPre, specRun]
  | cons o l ih => intro z; simp [OpsPre, specRun, ih, and_assoc]

/-- Every history of operations on a mounted tape shows what the row of items says, and unmounting leaves the items, in
the published layout, at the start of the file. -/
theorem tape_shows_items (f : Fmt) (hf : f ≠ .other) (ring den : Bool) (t : Tape) (hb : t.b.buffer.length = W)
    (junk : Nat) (items : List Item) (rest : List Nat) (hfit : ∀ i ∈ items, Fits f i) (ops : List Op)
    (hpre : OpsPre f ring ops (mounted items rest)) :
    ∃ fuel t' rest', opRun fuel junk ops (attach t (images f items ++ rest) f ring den) =
        .ok ((specRun f ops (mounted items rest)).1, t') ∧
      (detach t').b.file = images f ((specRun f ops (mounted items rest)).2.before.reverse ++
        (specRun f ops (mounted items rest)).2.after) ++ rest' ∧
      ((specRun f ops (mounted items rest)).2.isEnd = true → rest' = []) := by
  obtain ⟨fuel, t', rest', e, h⟩ := run_refines junk hf ops _ _ rest (attach_rel t f ring den items rest hb hfit) hpre
  exact ⟨fuel, t', rest', e, by rw [detach_file h.drive.rep, images_append]; rfl, h.isEnd⟩

/-! ## Round trips (C25, C26, C27) -/

theorem writes_rel {f} (junk : Nat) (hf : f ≠ .other) : ∀ (items : List Item) (t : Tape) (z : Z) (rest : List Nat),
    Rel f true rest t z → z.after = [] → z.justRead = false → (∀ i ∈ items, Fits f i) →
    ∃ t', opRun 0 junk (items.map .write) t = .ok (items.map wroteAll, t') ∧
      Rel f true (rest.drop (images f items).length) t'
        ⟨items.reverse ++ z.before, [], (rest.drop (images f items).length).isEmpty, z.eot, false⟩ := by
  intro items
  induction items with
  | nil =>
    intro t z rest h ha hj _
    refine ⟨t, rfl, ?_⟩
    simp only [images_nil, List.length_nil, List.drop_zero, List.reverse_nil, List.nil_append]
    exact ⟨by have := h.drive; rw [ha] at this; exact this, by intro q; simpa using q, h.eot,
      fun q => ⟨rfl, (h.eotEnd q).2⟩, h.eotP7, h.bot, h.fitB, by simp, fun _ => h.clean hj⟩
  | cons i l ih =>
    intro t z rest h ha hj hfit
    have hd := h.drive
    rw [ha, images_nil, List.append_nil] at hd
    obtain ⟨t1, e1, d1, a1, a2, a3⟩ := op_write 0 junk i hd hf (h.clean hj) (hfit i (by simp))
    have hov : over (images f z.before.reverse ++ rest) (images f z.before.reverse).length (image f i) =
        images f z.before.reverse ++ image f i ++ rest.drop (image f i).length := by
      unfold over
      rw [List.take_left, ← List.drop_drop, List.drop_left]
    rw [hov] at d1
    have h1 : Rel f true (rest.drop (image f i).length) t1 { before := i :: z.before, after := [], isEnd := (rest.drop (image f i).length).isEmpty, eot := z.eot, justRead := false } := by
      refine ⟨?_, by intro q; simpa using q, a1.trans h.eot, fun _ => ⟨rfl, a3⟩, h.eotP7, ?_, ?_, by simp, fun _ => a3⟩
      · simp only [images_snoc, images_nil, List.append_nil]
        rw [List.length_append]; exact d1
      · intro q; rw [a2] at q; cases q
      · intro j hj
        rcases List.mem_cons.mp hj with q | q
        · rw [q]; exact hfit i (by simp)
        · exact h.fitB j q
    obtain ⟨t2, e2, h2⟩ := ih t1 _ _ h1 rfl rfl (fun j hj => hfit j (by simp [hj]))
    refine ⟨t2, ?_, ?_⟩
    · simp only [List.map_cons, opRun, e1, bind_ok, e2]
    · simp only [List.drop_drop] at h2
      rw [images_cons, List.length_append, List.reverse_cons, List.append_assoc]
      exact h2

theorem reads_spec (f : Fmt) : ∀ (items : List Item) (reads : List (Nat × Bool)) (z : Z), reads.length = items.length →
    z.after = items →
    specRun f (reads.map (fun r => .fwd r.1 r.2)) z = (List.zipWith (fun r i => readItem r.1 r.2 false i) reads items,
      { z with before := items.reverse ++ z.before, after := [], justRead := if items = [] then z.justRead else true }) := by
  intro items
  induction items with
  | nil =>
    intro reads z hr ha
    have : reads = [] := List.length_eq_zero_iff.mp hr
    subst this
    cases z
    simp only at ha
    subst ha
    simp [specRun]
  | cons i l ih =>
    intro reads z hr ha
    cases reads with
    | nil => simp at hr
    | cons r reads =>
      have hs : specStep f (.fwd r.1 r.2) z = (readItem r.1 r.2 false i, { z with before := i :: z.before, after := l, justRead := true }) := by
        simp [specStep, ha]
      simp only [List.map_cons, specRun, hs]
      rw [ih reads { z with before := i :: z.before, after := l, justRead := true } (by simpa using hr) rfl]
      cases l <;> simp

theorem reads_pre (f : Fmt) (rg : Bool) : ∀ (items : List Item) (reads : List (Nat × Bool)) (z : Z),
    reads.length = items.length → z.after = items → (f = .p7b → items = [] ∨ items.getLast? = some .mark) →
    OpsPre f rg (reads.map (fun r => .fwd r.1 r.2)) z := by
  intro items
  induction items with
  | nil =>
    intro reads z hr ha _
    have : reads = [] := List.length_eq_zero_iff.mp hr
    subst this
    trivial
  | cons i l ih =>
    intro reads z hr ha hp
    cases reads with
    | nil => simp at hr
    | cons r reads =>
      have hs : specStep f (.fwd r.1 r.2) z = (readItem r.1 r.2 false i, { z with before := i :: z.before, after := l, justRead := true }) := by
        simp [specStep, ha]
      simp only [List.map_cons, OpsPre, hs]
      refine ⟨⟨by simp [ha], ?_⟩, ih reads _ (by simpa using hr) rfl ?_⟩
      · intro q bs hb
        rw [ha] at hb
        rcases hp q with w | w
        · cases w
        · rw [hb] at w; simp at w
      · intro q
        rcases hp q with w | w
        · cases w
        · cases l with
          | nil => exact Or.inl rfl
          | cons j l => right; simpa using w

/-- Items written from the load point, rewound, are read back one by one: each read asks for any number of frames and gets
the bytes of the record in order, then EOB.  After the last one the drive reports end of tape, if the old content
of the file was not longer than what was written.  The file then holds the items in the published layout. -/
theorem round_trip (f : Fmt) (hf : f ≠ .other) (den : Bool) (t : Tape) (hb : t.b.buffer.length = W) (junk : Nat)
    (items : List Item) (old : List Nat) (hold : old.length ≤ (images f items).length) (hfit : ∀ i ∈ items, Fits f i)
    (hlast : f = .p7b → items = [] ∨ items.getLast? = some .mark) (n : Nat) (hn : 0 < n)
    (reads : List (Nat × Bool)) (hr : reads.length = items.length) (k : Nat) (fin : Bool) :
    ∃ fuel t', opRun fuel junk (items.map .write ++ [.rewind n] ++ reads.map (fun r => .fwd r.1 r.2) ++ [.fwd k fin])
        (attach t old f true den) =
      .ok (items.map wroteAll ++ [.rewound .ok true] ++ List.zipWith (fun r i => readItem r.1 r.2 false i) reads items ++
        [.read .eot [] none], t') ∧
      (detach t').b.file = images f items := by
  have h0 := attach_rel t f true den [] old hb (by simp)
  simp only [images_nil, List.nil_append] at h0
  obtain ⟨t1, e1, h1⟩ := writes_rel junk hf items _ _ _ h0 rfl rfl hfit
  have hdrop : old.drop (images f items).length = [] := List.drop_eq_nil_of_le hold
  rw [hdrop] at h1
  simp only [List.append_nil, List.isEmpty_nil] at h1
  let ops := [Op.rewind n] ++ reads.map (fun r => Op.fwd r.1 r.2) ++ [.fwd k fin]
  have hz : specStep f (.rewind n) { before := items.reverse, after := [], isEnd := true, eot := false, justRead := false } =
      (.rewound .ok true, { before := [], after := items, isEnd := true, eot := false, justRead := false }) := by
    simp [specStep]
  have hrd := reads_spec f items reads { before := [], after := items, isEnd := true, eot := false, justRead := false } hr rfl
  have hspec : (specRun f ops { before := items.reverse, after := [], isEnd := true, eot := false, justRead := false }) =
      ([.rewound .ok true] ++ List.zipWith (fun r i => readItem r.1 r.2 false i) reads items ++ [.read .eot [] none],
        { before := items.reverse, after := [], isEnd := true, eot := f != .p7b, justRead := false }) := by
    show specRun f ([Op.rewind n] ++ reads.map (fun r => Op.fwd r.1 r.2) ++ [.fwd k fin]) _ = _
    rw [specRun_append, specRun_append]
    have : specRun f [.rewind n] { before := items.reverse, after := [], isEnd := true, eot := false, justRead := false } =
        ([.rewound .ok true], { before := [], after := items, isEnd := true, eot := false, justRead := false }) := by
      simp only [specRun, hz]
    rw [this]
    simp only
    rw [hrd]
    simp [specRun, specStep]
  have hpre : OpsPre f true ops { before := items.reverse, after := [], isEnd := true, eot := false, justRead := false } := by
    show OpsPre f true ([Op.rewind n] ++ reads.map (fun r => Op.fwd r.1 r.2) ++ [.fwd k fin]) _
    rw [OpsPre_append, OpsPre_append]
    have : specRun f [.rewind n] { before := items.reverse, after := [], isEnd := true, eot := false, justRead := false } =
        ([.rewound .ok true], { before := [], after := items, isEnd := true, eot := false, justRead := false }) := by
      simp only [specRun, hz]
    refine ⟨⟨⟨⟨rfl, hn⟩, trivial⟩, ?_⟩, ?_⟩
    · rw [this]; exact reads_pre f true items reads _ hr rfl hlast
    · rw [specRun_append, this]
      simp only
      rw [hrd]
      exact ⟨⟨fun _ => rfl, by simp⟩, trivial⟩
  obtain ⟨fuel, t2, r2, e2, h2⟩ := run_refines junk hf ops t1 _ _ h1 hpre
  rw [hspec] at e2 h2
  refine ⟨fuel, t2, ?_, ?_⟩
  · have hap : ∀ (a b : List Op) (u v w : Tape) (x y : List Obs), opRun fuel junk a u = .ok (x, v) →
        opRun fuel junk b v = .ok (y, w) → opRun fuel junk (a ++ b) u = .ok (x ++ y, w) := by
      intro a
      induction a with
      | nil => intro b u v w x y h1 h2; obtain ⟨rfl, rfl⟩ := Prod.mk.inj (Res.ok.inj h1); exact h2
      | cons o l ih =>
        intro b u v w x y h1 h2
        unfold opRun at h1
        obtain ⟨⟨a, u1⟩, g1, h1⟩ := bind_eq_ok h1
        simp only at h1
        obtain ⟨⟨q, u2⟩, g2, h1⟩ := bind_eq_ok h1
        obtain ⟨rfl, rfl⟩ := Prod.mk.inj (Res.ok.inj h1)
        have := ih b u1 u2 w q y g2 h2
        simp only [List.cons_append, opRun, g1, bind_ok, this]
    have := hap _ ops _ _ _ _ _ (opRun_mono 0 fuel junk (Nat.zero_le _) _ _ _ e1) e2
    simpa [ops, List.append_assoc] using this
  · rw [detach_file h2.drive.rep]
    have := h2.isEnd rfl
    rw [this]
    simp [images_nil]

/-- C25. -/
theorem C25_tap_round_trip (den : Bool) (t : Tape) (hb : t.b.buffer.length = W) (junk : Nat)
    (items : List Item) (old : List Nat) (hold : old.length ≤ (images .tap items).length)
    (hfit : ∀ i ∈ items, Fits .tap i) (n : Nat) (hn : 0 < n)
    (reads : List (Nat × Bool)) (hr : reads.length = items.length) (k : Nat) (fin : Bool) :
    ∃ fuel t', opRun fuel junk (items.map .write ++ [.rewind n] ++ reads.map (fun r => .fwd r.1 r.2) ++ [.fwd k fin])
        (attach t old .tap true den) =
      .ok (items.map wroteAll ++ [.rewound .ok true] ++ List.zipWith (fun r i => readItem r.1 r.2 false i) reads items ++
        [.read .eot [] none], t') ∧
      (detach t').b.file = images .tap items :=
  round_trip .tap (by simp) den t hb junk items old hold hfit (by simp) n hn reads hr k fin

example : ∀ i ∈ [Item.data [1, 2, 3], .mark, .data [0, 255]], Fits .tap i := by simp [Fits]
example : images .tap [Item.data [1, 2, 3], .mark, .data [0, 255]] =
    [3, 0, 0, 0, 1, 2, 3, 0, 3, 0, 0, 0, 0, 0, 0, 0, 2, 0, 0, 0, 0, 255, 2, 0, 0, 0] := rfl
example : List.zipWith (fun r i => readItem r.1 r.2 false i) [(4, true), (1, false)] [Item.data [1, 2, 3], .mark] =
    [.read .ok [(.ok, 1), (.ok, 2), (.ok, 3), (.eob, 0)] (some .ok), .read .mark [(.mark, 0)] none] := rfl

/-- C26. -/
theorem C26_e11_round_trip (den : Bool) (t : Tape) (hb : t.b.buffer.length = W) (junk : Nat)
    (items : List Item) (old : List Nat) (hold : old.length ≤ (images .e11 items).length)
    (hfit : ∀ i ∈ items, Fits .e11 i) (n : Nat) (hn : 0 < n)
    (reads : List (Nat × Bool)) (hr : reads.length = items.length) (k : Nat) (fin : Bool) :
    ∃ fuel t', opRun fuel junk (items.map .write ++ [.rewind n] ++ reads.map (fun r => .fwd r.1 r.2) ++ [.fwd k fin])
        (attach t old .e11 true den) =
      .ok (items.map wroteAll ++ [.rewound .ok true] ++ List.zipWith (fun r i => readItem r.1 r.2 false i) reads items ++
        [.read .eot [] none], t') ∧
      (detach t').b.file = images .e11 items :=
  round_trip .e11 (by simp) den t hb junk items old hold hfit (by simp) n hn reads hr k fin

example : ∀ i ∈ [Item.data [1, 2, 3], .mark, .data [0, 255]], Fits .e11 i := by simp [Fits]
example : images .e11 [Item.data [1, 2, 3], .mark] = [3, 0, 0, 0, 1, 2, 3, 3, 0, 0, 0, 0, 0, 0, 0] := rfl

/-- C27 holds for tapes whose last item is a tape mark and whose records do not begin with the frame 017.
Missing: a record at the physical end (`C27_violated_last_record`), a record that begins with 017
(`C27_violated_first_frame`). -/
theorem C27_p7b_round_trip_partial (den : Bool) (t : Tape) (hb : t.b.buffer.length = W) (junk : Nat)
    (items : List Item) (old : List Nat) (hold : old.length ≤ (images .p7b items).length)
    (hfit : ∀ i ∈ items, Fits .p7b i) (hlast : items = [] ∨ items.getLast? = some .mark) (n : Nat) (hn : 0 < n)
    (reads : List (Nat × Bool)) (hr : reads.length = items.length) (k : Nat) (fin : Bool) :
    ∃ fuel t', opRun fuel junk (items.map .write ++ [.rewind n] ++ reads.map (fun r => .fwd r.1 r.2) ++ [.fwd k fin])
        (attach t old .p7b true den) =
      .ok (items.map wroteAll ++ [.rewound .ok true] ++ List.zipWith (fun r i => readItem r.1 r.2 false i) reads items ++
        [.read .eot [] none], t') ∧
      (detach t').b.file = images .p7b items :=
  round_trip .p7b (by simp) den t hb junk items old hold hfit (fun _ => hlast) n hn reads hr k fin

example : (∀ i ∈ [Item.data [1, 2, 3], .data [0x7f], .mark], Fits .p7b i) ∧
    [Item.data [1, 2, 3], .data [0x7f], .mark].getLast? = some .mark := by simp [Fits]

/-- The loop that looks for the gap never ends at the physical end of the file. -/
theorem irgLoop_end : ∀ (fuel : Nat) (t : Tape) (ring : Bool) (c : List Nat) (d : Nat), Drive t .p7b ring c c.length →
    t.mark = false → t.func = .read → t.lrecl = 1 → d < 128 → irgLoop fuel t d = .hang := by
  intro fuel
  induction fuel with
  | zero => intro t ring c d _ _ _ h1 _; unfold irgLoop; rw [if_neg (by omega)]
  | succ n ih =>
    intro t ring c d h hm hfn h1 hd
    obtain ⟨b1, e1, r1, _, _, a3, _⟩ := readByte_end h.rep d rfl
    have e2 : readFrame t d = .ok (.eot, d, { t with b := b1, lrecl := 1, posFrame := t.posFrame + step t }) := by
      unfold readFrame
      rw [if_neg (by simp [h.rep.opened]), if_neg (by simp [hm]), if_neg (by rw [h.fmt]; simp), if_pos h.fmt, if_pos hfn,
        if_neg (by omega), e1]
      simp only [bind_ok]
      rw [if_neg (by omega), show d - d / 128 % 2 * 128 = d by omega]
    unfold irgLoop
    rw [if_neg (by omega)]
    simp only [e2, bind_ok]
    rw [if_neg (by simp)]
    exact ih _ ring c d ⟨r1, h.fmt, h.ring, a3.trans h.wrt⟩ hm hfn rfl hd

theorem irgLoop_runs_off : ∀ (bs : List Nat) (fuel : Nat) (d : Nat) (t : Tape) (ring : Bool) (c pre : List Nat),
    Drive t .p7b ring c pre.length → c = pre ++ raw t.lrecl bs → t.mark = false → t.func = .read →
    (t.lrecl = 0 ∨ t.lrecl = 1) → (t.lrecl = 0 → bs ≠ []) → (∀ x ∈ bs, x < 128) → d < 128 →
    irgLoop fuel t d = .hang := by
  intro bs
  induction bs with
  | nil =>
    intro fuel d t ring c pre h hc hm hfn hl h0 _ hd
    have h1 : t.lrecl = 1 := by rcases hl with q | q; exact absurd rfl (h0 q); exact q
    have : pre.length = c.length := by rw [hc]; simp [raw]
    rw [this] at h
    exact irgLoop_end fuel t ring c d h hm hfn h1 hd
  | cons x l ih =>
    intro fuel d t ring c pre h hc hm hfn hl h0 hx hd
    cases fuel with
    | zero => unfold irgLoop; rw [if_neg (by omega)]
    | succ n =>
      have hxl := hx x (by simp)
      have hp : pre.length < c.length := by rw [hc]; simp [raw]
      have hcp : c[pre.length] = if t.lrecl = 0 then x + 128 else x := by simp [hc, raw]
      have hcx : c[pre.length] - c[pre.length] / 128 % 2 * 128 = x := by
        rw [hcp]; split <;> omega
      obtain ⟨b1, pf1, e1, d1, _, _⟩ := readFrame_p7 d h hm hfn (by omega) hp (by
        rintro ⟨q1, q2⟩; rw [hcp, if_neg (by omega)] at q2; omega)
      rw [hcx] at e1
      unfold irgLoop
      rw [if_neg (by omega)]
      simp only [e1, bind_ok]
      rw [if_neg (by simp)]
      exact ih n x _ ring c (pre ++ [if t.lrecl = 0 then x + 128 else x]) (by simpa using d1)
        (by show c = _ ++ raw 1 l; rw [raw_one, hc]; simp [raw]) hm hfn (Or.inr rfl) (by simp)
        (fun y hy => hx y (by simp [hy])) hxl

/-- C27 fails for a record at the physical end of a P7B file: whatever the record, written, rewound and started to be
read, tape_finish_rec never returns. -/
theorem C27_violated_last_record (den : Bool) (t : Tape) (hb : t.b.buffer.length = W) (junk : Nat) (hj : junk < 128)
    (bs : List Nat) (hfit : Fits .p7b (.data bs)) (n : Nat) (hn : 0 < n) (fin : Bool) :
    ∃ fuel0, ∀ fuel ≥ fuel0, opRun fuel junk [.write (.data bs), .rewind n, .fwd 0 fin] (attach t [] .p7b true den) = .hang := by
  have h0 := attach_rel t .p7b true den [] [] hb (by simp)
  simp only [images_nil, List.nil_append] at h0
  obtain ⟨fuel, t1, r1, e1, h1⟩ := run_refines junk (f := .p7b) (by simp) [.write (.data bs), .rewind n] _ _ _ h0
    ⟨⟨rfl, hfit, rfl⟩, ⟨rfl, hn⟩, trivial⟩
  have hd := h1.drive
  have hr1 : r1 = [] := h1.isEnd rfl
  simp only [specRun, specStep, List.reverse_nil, images_nil, List.nil_append, List.reverse_cons, List.append_nil,
    hr1, List.length_nil] at hd
  have he : t1.b.eot = false := h1.eot
  refine ⟨fuel, fun fu hfu => ?_⟩
  have e2 := opRun_mono fuel fu junk hfu _ _ _ e1
  have hcont : images .p7b [Item.data bs] = raw 0 bs := by rw [images_cons, images_nil, List.append_nil, image_p7]
  rw [hcont] at hd
  obtain ⟨hne, _, h3⟩ := hfit
  rw [if_pos rfl] at h3
  obtain ⟨x0, l0, rfl⟩ : ∃ x0 l0, bs = x0 :: l0 := by
    cases bs with | nil => exact absurd rfl hne | cons x l => exact ⟨x, l, rfl⟩
  obtain ⟨t2, e3, d2, a1, a2, a3, a4, a5, a6⟩ := readForw_p7 (pre := []) (x0 + 128) l0 hd (by simp [raw]) (by
    intro q; apply h3.2; simp; omega) he
  have e4 : opStep fu junk (.fwd 0 fin) t1 = .hang := by
    simp only [opStep, readOp, e3, bind_ok, if_true, frames]
    have e5 : finishRec fu junk t2 = .hang := by
      unfold finishRec
      rw [if_neg (by simp [d2.rep.opened]), if_neg (by rw [d2.fmt]; simp), if_pos d2.fmt, if_neg (by simp [a3]), a5]
      simp only
      rw [irgLoop_runs_off (x0 :: l0) fu junk t2 true _ [] d2 (by rw [a4]; simp) a3 a5 (Or.inl a4) (fun _ => hne) h3.1 hj]
      rfl
    rw [e5]; rfl
  have hcut : ∀ (a : List Op) (o : Op) (u v : Tape) (x : List Obs), opRun fu junk a u = .ok (x, v) →
      opStep fu junk o v = .hang → opRun fu junk (a ++ [o]) u = .hang := by
    intro a
    induction a with
    | nil =>
      intro o u v x g1 g2
      obtain ⟨rfl, rfl⟩ := Prod.mk.inj (Res.ok.inj g1)
      simp only [List.nil_append, opRun, g2]; rfl
    | cons o' l ih =>
      intro o u v x g1 g2
      unfold opRun at g1
      obtain ⟨⟨a, u1⟩, g3, g1⟩ := bind_eq_ok g1
      simp only at g1
      obtain ⟨⟨q, u2⟩, g4, g1⟩ := bind_eq_ok g1
      obtain ⟨rfl, rfl⟩ := Prod.mk.inj (Res.ok.inj g1)
      have := ih o u1 u2 q g4 g2
      simp only [List.cons_append, opRun, g3, bind_ok, this]
      rfl
  exact hcut _ _ _ _ _ e2 e4

example : Fits .p7b (.data [1, 2, 0x41]) := by simp [Fits]

/-- C27 fails for a record that is the single frame 017: it reads back as a tape mark. -/
theorem C27_violated_first_frame (den : Bool) (t : Tape) (hb : t.b.buffer.length = W) (junk : Nat) :
    ∃ fuel t', opRun fuel junk [.write (.data [0x0f]), .write .mark, .rewind 1, .fwd 1 true] (attach t [] .p7b true den) =
      .ok ([wroteAll (.data [0x0f]), wroteAll .mark, .rewound .ok true, .read .mark [(.mark, 0)] (some .ok)], t') := by
  have h0 := (attach_rel t .p7b true den [] [] hb (by simp))
  obtain ⟨t1, e1, d1, a1, a2, a3⟩ := writeData_p7 0 junk [0x0f] h0.drive (h0.clean rfl) (by simp) (by simp) (by simp)
  have h1 : Rel .p7b true [] t1 { before := [.mark], after := [], isEnd := true, eot := false, justRead := false } := by
    refine ⟨?_, fun _ => rfl, a1.trans h0.eot, by simp, fun _ => rfl, (by intro q; rw [a2] at q; cases q), by simp [Fits],
      by simp, fun _ => a3⟩
    exact d1
  obtain ⟨fuel, t2, r2, e2, _⟩ := run_refines junk (f := .p7b) (by simp) [.write .mark, .rewind 1, .fwd 1 true] t1 _ _ h1
    ⟨⟨rfl, trivial, rfl⟩, ⟨rfl, by omega⟩, ⟨by simp [specStep], by simp [specStep]⟩, trivial⟩
  refine ⟨fuel, t2, ?_⟩
  have e1' : opStep fuel junk (.write (.data [0x0f])) (attach t [] .p7b true den) = .ok (wroteAll (.data [0x0f]), t1) :=
    opStep_mono 0 fuel junk _ _ _ (Nat.zero_le _) e1
  rw [opRun, e1', bind_ok]
  simp only
  rw [e2, bind_ok]
  rfl

/-! ## Reading backward, marks, rewind (C28, C29, C32) -/

/-- C28: after any history, reading the item behind the head backward delivers it reversed, and reading forward then
delivers the same item again.  Missing: in the P7B format the forward read of a record with nothing behind it
(`C27_violated_last_record`). -/
theorem C28_backward_then_forward_partial (f : Fmt) (hf : f ≠ .other) (ring den : Bool) (t : Tape)
    (hb : t.b.buffer.length = W) (junk : Nat) (items : List Item) (rest : List Nat) (hfit : ∀ i ∈ items, Fits f i)
    (ops : List Op) (hpre : OpsPre f ring ops (mounted items rest)) (i : Item) (r : List Item)
    (hi : (specRun f ops (mounted items rest)).2.before = i :: r)
    (hp7 : f = .p7b → i = .mark ∨ (specRun f ops (mounted items rest)).2.after ≠ [])
    (k k' : Nat) (fin fin' : Bool) :
    ∃ fuel t', opRun fuel junk (ops ++ [.bwd k fin, .fwd k' fin']) (attach t (images f items ++ rest) f ring den) =
      .ok ((specRun f ops (mounted items rest)).1 ++ [readItem k fin true i, readItem k' fin' false i], t') := by
  have hpre' : OpsPre f ring (ops ++ [.bwd k fin, .fwd k' fin']) (mounted items rest) := by
    rw [OpsPre_append]
    refine ⟨hpre, trivial, ⟨?_, ?_⟩, trivial⟩
    · simp [specStep, hi]
    · intro q bs
      simp only [specStep, hi]
      intro w
      obtain ⟨w1, w2⟩ := List.cons.inj w
      rcases hp7 q with v | v
      · rw [v] at w1; cases w1
      · exact v w2
  obtain ⟨fuel, t', _, e, _⟩ := tape_shows_items f hf ring den t hb junk items rest hfit _ hpre'
  refine ⟨fuel, t', ?_⟩
  rw [e, specRun_append]
  simp [specRun, specStep, hi]

example : (specRun .tap [.fwd 3 true] (mounted [.data [1, 2, 3], .mark] [])).2.before = [.data [1, 2, 3]] := rfl
example : readItem 4 true true (.data [1, 2, 3]) = .read .ok [(.ok, 3), (.ok, 2), (.ok, 1), (.eob, 0)] (some .ok) := rfl

/-- C29: after any history, records and a mark written between them come back in order, backward and forward, the
mark reported as a mark in both directions. -/
theorem C29_marks_separate (f : Fmt) (hf : f ≠ .other) (den : Bool) (t : Tape) (hb : t.b.buffer.length = W) (junk : Nat)
    (items : List Item) (rest : List Nat) (hfit : ∀ i ∈ items, Fits f i) (ops : List Op)
    (hpre : OpsPre f true ops (mounted items rest)) (hj : (specRun f ops (mounted items rest)).2.justRead = false)
    (a b : List Nat) (ha : Fits f (.data a)) (hb' : Fits f (.data b)) (k : Nat) (fin : Bool) :
    ∃ fuel t', opRun fuel junk (ops ++ [.write (.data a), .write .mark, .write (.data b), .bwd k fin, .bwd k fin, .bwd k fin,
        .fwd k fin, .fwd k fin]) (attach t (images f items ++ rest) f true den) =
      .ok ((specRun f ops (mounted items rest)).1 ++ [wroteAll (.data a), wroteAll .mark, wroteAll (.data b),
        readItem k fin true (.data b), .read .mark (List.replicate k (.mark, 0)) (if fin then some .ok else none),
        readItem k fin true (.data a), readItem k fin false (.data a),
        .read .mark (List.replicate k (.mark, 0)) (if fin then some .ok else none)], t') := by
  have hpre' : OpsPre f true (ops ++ [.write (.data a), .write .mark, .write (.data b), .bwd k fin, .bwd k fin, .bwd k fin,
        .fwd k fin, .fwd k fin]) (mounted items rest) := by
    rw [OpsPre_append]
    exact ⟨hpre, ⟨rfl, ha, hj⟩, ⟨rfl, trivial, rfl⟩, ⟨rfl, hb', rfl⟩, trivial, trivial, trivial,
      ⟨by simp [specStep], by simp [specStep]⟩, ⟨by simp [specStep], by simp [specStep]⟩, trivial⟩
  obtain ⟨fuel, t', _, e, _⟩ := tape_shows_items f hf true den t hb junk items rest hfit _ hpre'
  refine ⟨fuel, t', ?_⟩
  rw [e, specRun_append]
  simp [specRun, specStep, readItem]

/-- C32: after any history that did not end at end of tape, a rewind ends at the load point, and reading
forward delivers the items from the first.  Missing: after a reported end of tape (`C32_violated_after_eot`). -/
theorem C32_rewind_to_first_partial (f : Fmt) (hf : f ≠ .other) (ring den : Bool) (t : Tape) (hb : t.b.buffer.length = W)
    (junk : Nat) (items : List Item) (rest : List Nat) (hfit : ∀ i ∈ items, Fits f i)
    (ops : List Op) (hpre : OpsPre f ring ops (mounted items rest))
    (heot : (specRun f ops (mounted items rest)).2.eot = false) (n : Nat) (hn : 0 < n)
    (all : List Item) (hall : all = (specRun f ops (mounted items rest)).2.before.reverse ++
      (specRun f ops (mounted items rest)).2.after)
    (hlast : f = .p7b → all = [] ∨ all.getLast? = some .mark)
    (reads : List (Nat × Bool)) (hr : reads.length = all.length) :
    ∃ fuel t', opRun fuel junk (ops ++ ([.rewind n] ++ reads.map (fun r => .fwd r.1 r.2)))
        (attach t (images f items ++ rest) f ring den) =
      .ok ((specRun f ops (mounted items rest)).1 ++ ([.rewound .ok true] ++
        List.zipWith (fun r i => readItem r.1 r.2 false i) reads all), t') := by
  have hs : specRun f [.rewind n] (specRun f ops (mounted items rest)).2 = ([.rewound .ok true],
      { (specRun f ops (mounted items rest)).2 with before := [], after := all, justRead := false }) := by
    simp [specRun, specStep, hall]
  have hpre' : OpsPre f ring (ops ++ ([.rewind n] ++ reads.map (fun r => .fwd r.1 r.2))) (mounted items rest) := by
    rw [OpsPre_append, OpsPre_append]
    refine ⟨hpre, ⟨⟨heot, hn⟩, trivial⟩, ?_⟩
    rw [hs]
    exact reads_pre f ring all reads _ hr rfl hlast
  obtain ⟨fuel, t', _, e, _⟩ := tape_shows_items f hf ring den t hb junk items rest hfit _ hpre'
  refine ⟨fuel, t', ?_⟩
  rw [e, specRun_append, specRun_append, hs]
  simp only
  rw [reads_spec f all reads _ hr rfl]

example : (specRun .tap [.fwd 3 true, .bwd 0 true, .fwd 1 true] (mounted [.data [1, 2, 3], .mark] [])).2.eot = false := rfl

/-- C32 fails after end of tape: having read to the end, a rewind reaches the load point, but reading forward reports
end of tape instead of the first record. -/
theorem C32_violated_after_eot (f : Fmt) (hf : IsTE f) (ring den : Bool) (t : Tape) (hb : t.b.buffer.length = W)
    (junk : Nat) (bs : List Nat) (hfit : Fits f (.data bs)) (n : Nat) (hn : 0 < n) (k : Nat) (fin : Bool) :
    ∃ fuel t', opRun fuel junk [.fwd k fin, .fwd k fin, .rewind n, .fwd k fin] (attach t (image f (.data bs)) f ring den) =
      .ok ([readItem k fin false (.data bs), .read .eot [] none, .rewound .ok true, .read .eot [] none], t') := by
  have hfo : f ≠ .other := by rcases hf with q | q <;> simp [q]
  have hf7 : f ≠ .p7b := by rcases hf with q | q <;> simp [q]
  have h0 := attach_rel t f ring den [.data bs] [] hb (by simpa using hfit)
  obtain ⟨fuel, t1, r1, e1, h1⟩ := run_refines junk hfo [.fwd k fin, .fwd k fin] _ _ _ h0
    ⟨⟨by simp, fun q => absurd q hf7⟩, ⟨by simp [specStep], fun q => absurd q hf7⟩, trivial⟩
  obtain ⟨fuel2, t2, e2, d2, a1, a2, a3, _⟩ := op_rewind junk n h1.drive hn
  have he : t2.b.eot = true := by rw [a1, h1.eot]; simp [specRun, specStep, hf7]
  have e3 : ∀ fu, opStep fu junk (.fwd k fin) t2 =
      .ok (.read .eot [] none, { t2 with b := { t2.b with bot := false }, mark := false, parity := false }) := by
    intro fu
    have : readForw t2 = .ok (.eot, { t2 with b := { t2.b with bot := false }, mark := false, parity := false }) := by
      unfold readForw
      rw [if_neg (by simp [d2.rep.opened])]
      simp only
      rw [if_pos he]
    simp [opStep, readOp, this]
  refine ⟨max fuel fuel2, { t2 with b := { t2.b with bot := false }, mark := false, parity := false }, ?_⟩
  have e1' := opRun_mono fuel (max fuel fuel2) junk (Nat.le_max_left ..) _ _ _ e1
  have e2' := opStep_mono fuel2 (max fuel fuel2) junk _ _ _ (Nat.le_max_right ..) e2
  simp only [images_cons, images_nil, List.append_nil] at e1'
  have hap : ∀ (a b : List Op) (u v w : Tape) (x y : List Obs), opRun (max fuel fuel2) junk a u = .ok (x, v) →
        opRun (max fuel fuel2) junk b v = .ok (y, w) → opRun (max fuel fuel2) junk (a ++ b) u = .ok (x ++ y, w) := by
      intro a
      induction a with
      | nil => intro b u v w x y h1 h2; obtain ⟨rfl, rfl⟩ := Prod.mk.inj (Res.ok.inj h1); exact h2
      | cons o l ih =>
        intro b u v w x y h1 h2
        unfold opRun at h1
        obtain ⟨⟨a, u1⟩, g1, h1⟩ := bind_eq_ok h1
        simp only at h1
        obtain ⟨⟨q, u2⟩, g2, h1⟩ := bind_eq_ok h1
        obtain ⟨rfl, rfl⟩ := Prod.mk.inj (Res.ok.inj h1)
        have := ih b u1 u2 w q y g2 h2
        simp only [List.cons_append, opRun, g1, bind_ok, this]
  have e4 : opRun (max fuel fuel2) junk [.rewind n, .fwd k fin] t1 = .ok ([.rewound .ok true, .read .eot [] none],
      { t2 with b := { t2.b with bot := false }, mark := false, parity := false }) := by
    simp only [opRun, e2', bind_ok, e3]
  have := hap _ _ _ _ _ _ _ e1' e4
  simpa [specRun, specStep] using this

example : Fits .tap (.data [1, 2, 3]) := by simp [Fits]

/-! ## Arbitrary calls (C30, C33, C65) -/

/-- Calls of the tape interface, in any order. -/
inductive Call where
  | attach (file : List Nat) (f : Fmt) (ring den : Bool)
  | detach
  | writeStart
  | writeMark
  | readForw
  | readBack
  | readFrame (d : Nat)
  | writeFrame (x : Nat)
  | finishRec (junk : Nat)
  | startRewind
  | rewindFrames (n : Int)

def call (fuel : Nat) : Call → Tape → Res Tape
  | .attach file f ring den, t => .ok (Verif.Tape.attach t file f ring den)
  | .detach, t => .ok (Verif.Tape.detach t)
  | .writeStart, t => do let (_, t) ← Verif.Tape.writeStart t; .ok t
  | .writeMark, t => do let (_, t) ← Verif.Tape.writeMark t; .ok t
  | .readForw, t => do let (_, t) ← Verif.Tape.readForw t; .ok t
  | .readBack, t => do let (_, t) ← Verif.Tape.readBack t; .ok t
  | .readFrame d, t => do let (_, _, t) ← Verif.Tape.readFrame t d; .ok t
  | .writeFrame x, t => do let (_, t) ← Verif.Tape.writeFrame t x; .ok t
  | .finishRec junk, t => do let (_, t) ← Verif.Tape.finishRec fuel junk t; .ok t
  | .startRewind, t => .ok (Verif.Tape.startRewind t).2
  | .rewindFrames n, t => .ok (Verif.Tape.rewindFrames t n).2

def callRun (fuel : Nat) : List Call → Tape → Res Tape
  | [], t => .ok t
  | c :: l, t => do
    let t ← call fuel c t
    callRun fuel l t

def Call.isAttach : Call → Bool
  | .attach .. => true
  | _ => false

theorem call_good {pr f t} (hp : Prop) (fuel : Nat) (c : Call) (hc : c.isAttach = false) (hh : f = .p7b → hp)
    (h : TOk pr f t) : Good hp (call fuel c t) (TOk pr f) := by
  cases c with
  | attach file f ring den => cases hc
  | detach => exact detach_good h
  | writeStart => exact (writeStart_good hp h).bind (by rintro ⟨s, t⟩ h; exact h)
  | writeMark => exact (writeMark_good hp h).bind (by rintro ⟨s, t⟩ h; exact h)
  | readForw => exact (readForw_good hp h).bind (by rintro ⟨s, t⟩ h; exact h)
  | readBack => exact (readBack_good hp h).bind (by rintro ⟨s, t⟩ h; exact h)
  | readFrame d => exact (readFrame_good hp d h).bind (by rintro ⟨s, x, t⟩ h; exact h)
  | writeFrame x => exact (writeFrame_good hp x h).bind (by rintro ⟨s, t⟩ h; exact h)
  | finishRec junk => exact (finishRec_good hp hh fuel junk h).bind (by rintro ⟨s, t⟩ h; exact h)
  | startRewind => exact startRewind_good h
  | rewindFrames n => exact rewindFrames_good n h

theorem callRun_prot {f} (hp : Prop) (file : List Nat) (fuel : Nat) (hh : f = .p7b → hp) : ∀ (cs : List Call) (t : Tape),
    (∀ c ∈ cs, c.isAttach = false) → TOk (some file) f t → Good hp (callRun fuel cs t) (TOk (some file) f) := by
  intro cs
  induction cs with
  | nil => intro t _ h; exact h
  | cons c l ih =>
    intro t hc h
    exact (call_good hp fuel c (hc c (by simp)) hh h).bind fun t1 h1 => ih t1 (fun c hc' => hc c (by simp [hc'])) h1

/-- C30: mounted without the ring, no sequence of calls changes the file. -/
theorem C30_file_protected (fuel : Nat) (t : Tape) (hb : t.b.buffer.length = W) (ho : t.b.opened = false) (file : List Nat)
    (f : Fmt) (den : Bool) (cs : List Call) (hcs : ∀ c ∈ cs, c.isAttach = false) (t' : Tape)
    (h : callRun fuel cs (attach t file f false den) = .ok t') : t'.b.file = file := by
  have h0 : Inv none t.b := ⟨hb, by simp [ho], by simp⟩
  have g := callRun_prot True file fuel (fun _ => trivial) cs _ hcs (attach_good h0 file f false den)
  rw [h] at g
  exact (g.1.prot file rfl).2

/-- C30: writing is refused. -/
theorem C30_write_refused (t : Tape) (file : List Nat) (f : Fmt) (den : Bool) :
    writeStart (attach t file f false den) = .ok (.wrp, attach t file f false den) ∧
      writeMark (attach t file f false den) = .ok (.wrp, attach t file f false den) := by
  simp [writeStart, writeMark, attach]

/-- Any sequence of calls on a new drive; `hp` must hold if a P7B file is mounted. -/
theorem callRun_good (hp : Prop) (fuel : Nat) : ∀ (cs : List Call) (t : Tape),
    (∀ file ring den, Call.attach file .p7b ring den ∈ cs → hp) → (t.fmt = .p7b → hp) → Inv none t.b →
    Good hp (callRun fuel cs t) (fun t' => Inv none t'.b) := by
  intro cs
  induction cs with
  | nil => intro t _ _ h; exact h
  | cons c l ih =>
    intro t hc hf h
    by_cases ha : c.isAttach = true
    · cases c <;> simp [Call.isAttach] at ha
      rename_i file f ring den
      have g := attach_good h file f ring den
      refine ih _ (fun file ring den hm => hc file ring den (by simp [hm])) ?_ ⟨g.1.blen, g.1.op, by simp⟩
      intro q
      exact hc file ring den (by rw [← show f = .p7b from q]; simp)
    · have ha : c.isAttach = false := by simpa using ha
      exact (call_good hp fuel c ha hf ⟨h, rfl⟩).bind fun t1 h1 =>
        ih t1 (fun file ring den hm => hc file ring den (by simp [hm])) (fun q => hf (h1.2.symm.trans q)) h1.1

/-- C33: no sequence of calls touches memory outside the buffer. -/
theorem C33_calls_in_bounds (fuel : Nat) (cs : List Call) : callRun fuel cs newDrive ≠ .oob := by
  have g := callRun_good True fuel cs newDrive (fun _ _ _ _ => trivial) (fun _ => trivial)
    ⟨newDrive_buffer, by simp [newDrive], by simp⟩
  intro h
  rw [h] at g
  exact g

/-- C65: without a P7B file every sequence of calls returns. -/
theorem C65_calls_return_partial (fuel : Nat) (cs : List Call)
    (h7 : ∀ file ring den, Call.attach file .p7b ring den ∉ cs) : ∃ t, callRun fuel cs newDrive = .ok t := by
  have g := callRun_good False fuel cs newDrive (fun f r d h => h7 f r d h) (by simp [newDrive])
    ⟨newDrive_buffer, by simp [newDrive], by simp⟩
  cases h : callRun fuel cs newDrive with
  | ok t => exact ⟨t, rfl⟩
  | oob => rw [h] at g; exact g.elim
  | hang => rw [h] at g; exact g.elim

example : ∀ file ring den, Call.attach file .p7b ring den ∉
    [Call.attach [1, 2] .tap true false, .writeStart, .writeFrame 5, .finishRec 0, .readBack, .readFrame 0] := by simp

theorem readbkByte_at0 {pr b} (d : Nat) (h : Inv pr b) (ho : b.opened = true) (h0 : b.pos = 0) (h1 : b.posBuff = 0)
    (hd : b.dirty = true → b.writable = true) :
    ∃ x b', readbkByte b d = .ok (.bot, x, b') ∧ b'.pos = 0 ∧ b'.posBuff = 0 ∧ b'.bot = true := by
  have hr : ∀ c : Buf, c.buffer.length = W → c.pos = 0 → c.posBuff = 0 →
      ∃ x b', readbkRefill c d = .ok (.bot, x, b') ∧ b'.pos = 0 ∧ b'.posBuff = 0 ∧ b'.bot = true := by
    intro c hl q0 q1
    unfold readbkRefill
    by_cases hb : c.bot = true
    · rw [if_pos hb]; exact ⟨d, c, rfl, q0, q1, hb⟩
    · rw [if_neg hb, if_pos q0, List.getElem?_eq_getElem (by rw [hl, q1]; exact W_pos)]
      exact ⟨_, _, rfl, q0, rfl, rfl⟩
  unfold readbkByte
  rw [if_neg (by simp [ho]), if_pos (Or.inl h1)]
  by_cases hdt : b.dirty = true
  · rw [if_pos hdt]
    unfold flush
    rw [if_pos (hd hdt)]
    exact hr _ h.blen h0 h1
  · rw [if_neg hdt]; exact hr b h.blen h0 h1

/-- C33: after any sequence of calls, a backward read at byte 0 of the file reports BOT and stays there. -/
theorem C33_load_point_reported (fuel : Nat) (cs : List Call) (t : Tape) (h : callRun fuel cs newDrive = .ok t)
    (ho : t.b.opened = true) (hf : t.fmt ≠ .other) (h0 : t.b.pos + t.b.posBuff = 0)
    (hd : t.b.dirty = true → t.b.writable = true) :
    ∃ t', readBack t = .ok (.bot, t') ∧ atLoadpt t' = true ∧ t'.b.pos + t'.b.posBuff = 0 := by
  have g := callRun_good True fuel cs newDrive (fun _ _ _ _ => trivial) (fun _ => trivial)
    ⟨newDrive_buffer, by simp [newDrive], by simp⟩
  rw [h] at g
  have g : Inv none t.b := g
  unfold readBack
  rw [if_neg (by simp [ho])]
  simp only
  by_cases hb : t.b.bot = true
  · rw [if_pos hb]; exact ⟨_, rfl, hb, h0⟩
  rw [if_neg hb]
  obtain ⟨x, b', e, p0, p1, pb⟩ := readbkByte_at0 0 (g.setEot false) ho (show t.b.pos = 0 by omega)
    (show t.b.posBuff = 0 by omega) hd
  by_cases hte : t.fmt = .tap ∨ t.fmt = .e11
  · rw [if_pos hte]
    simp only [bkLoop, e, bind_ok]
    exact ⟨{ t with b := b', mark := false, parity := false, func := .rdback, srec := t.b.pos + t.b.posBuff }, by simp, pb,
      by show b'.pos + b'.posBuff = 0; omega⟩
  · have h7 : t.fmt = .p7b := p7_of hf hte
    rw [if_neg hte, if_pos h7]
    simp only [e, bind_ok]
    exact ⟨{ t with b := b', mark := false, parity := false, func := .rdback, srec := t.b.pos + t.b.posBuff }, by simp, pb,
      by show b'.pos + b'.posBuff = 0; omega⟩

/-- A drive in the middle of a file, rewound. -/
example : ∃ t, callRun 0 [.attach [4, 0, 0, 0, 1, 2, 3, 4, 4, 0, 0, 0] .tap false true, .readForw, .readFrame 0,
    .startRewind] newDrive = .ok t ∧ t.b.opened = true ∧ t.b.pos + t.b.posBuff = 0 ∧ t.b.bot = false := by
  have h0 := (attach_rel newDrive .tap false true [.data [1, 2, 3, 4]] [] newDrive_buffer (by simp [Fits])).drive
  obtain ⟨t1, e1, d1, a1, a2, a3, a4, a5, a6, a7⟩ := readForw_te (pre := []) (post := [1, 2, 3, 4, 4, 0, 0, 0]) [4, 0, 0, 0] rfl
    h0 (Or.inl rfl) rfl rfl (by decide)
  rw [if_neg (by decide)] at e1
  obtain ⟨b2, e2, r2, _, q2, q3, _⟩ := readByte_ok d1.rep 0 (by decide)
  have e3 : readFrame t1 0 = .ok (.ok, 1, { t1 with b := b2, lrecl := t1.lrecl + 1, posFrame := t1.posFrame + step t1 }) := by
    unfold readFrame
    rw [if_neg (by simp [d1.rep.opened]), if_neg (by rw [a3]; decide), if_pos (Or.inl d1.fmt), if_pos a6,
      if_neg (by rw [a4, a5 (by decide)]; decide), e2]
    rfl
  have hd2 : b2.dirty = false := by
    cases h : b2.dirty
    · rfl
    · have := r2.wrt h; rw [q3, d1.wrt] at this; cases this
  refine ⟨(startRewind { t1 with b := b2, lrecl := t1.lrecl + 1, posFrame := t1.posFrame + step t1 }).2, ?_, ?_⟩
  · simp only [callRun, call, bind_ok]
    rw [show attach newDrive [4, 0, 0, 0, 1, 2, 3, 4, 4, 0, 0, 0] .tap false true =
      attach newDrive (images .tap [.data [1, 2, 3, 4]] ++ []) .tap false true from rfl, e1]
    simp only [bind_ok, e3]
  · simp only [startRewind, hd2]
    exact ⟨r2.opened, rfl, q2.trans a2⟩

end Verif.Tape
