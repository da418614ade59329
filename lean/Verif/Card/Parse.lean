import Verif.Card.Deck
import Verif.Card.TableProps
/- Parsing the external form of one card, per format. -/
namespace Verif.Card

/-- The buffer holds `bs` from index `i`. -/
def At (mem : Nat → Nat) (i : Nat) : List Nat → Prop
  | [] => True
  | x :: xs => mem i = x ∧ At mem (i + 1) xs

@[simp] theorem At_nil {mem i} : At mem i [] := trivial
@[simp] theorem At_cons {mem i x xs} : At mem i (x :: xs) ↔ mem i = x ∧ At mem (i + 1) xs := Iff.rfl

theorem At_append {mem} : ∀ {xs : List Nat} {i ys}, At mem i (xs ++ ys) ↔ At mem i xs ∧ At mem (i + xs.length) ys
  | [], i, ys => by simp
  | x :: xs, i, ys => by
    simp only [List.cons_append, At_cons, At_append (xs := xs), List.length_cons, and_assoc]
    rw [show i + 1 + xs.length = i + (xs.length + 1) by omega]

theorem At_of_getElem {mem} : ∀ {b : List Nat} {i}, (∀ k, (h : k < b.length) → mem (i + k) = b[k]) → At mem i b
  | [], _, _ => trivial
  | x :: xs, i, h => by
    refine ⟨h 0 (Nat.zero_lt_succ _), At_of_getElem fun k hk => ?_⟩
    have := h (k + 1) (by simpa using hk)
    rw [show i + 1 + k = i + (k + 1) by omega, this]
    simp

theorem split12 {c : Nat} (h : c < 4096) : c = 64 * (c / 64) + c % 64 ∧ c / 64 < 64 ∧ c % 64 < 64 := by omega

/-- Lift a decidable fact about all 12-bit columns from a kernel evaluation. -/
theorem forall12 {p : Nat → Prop} (h : ∀ a b : Fin 64, p (64 * a.val + b.val)) (c : Nat) (hc : c < 4096) : p c := by
  obtain ⟨h1, h2, h3⟩ := split12 hc
  rw [h1]
  exact h ⟨_, h2⟩ ⟨_, h3⟩

theorem setCol_append (pre : List Nat) (k v : Nat) :
    setCol (pre ++ List.replicate (k + 1) 0) pre.length v = .ok ((pre ++ [v]) ++ List.replicate k 0) := by
  unfold setCol
  rw [if_pos (by simp), List.set_append_right _ _ (Nat.le_refl _)]
  simp [List.replicate_succ]

/-! ### Binary -/

theorem bin_col (c : Nat) (h : c < 4096) :
    ((((((c &&& 0x00f) <<< 4) % 256) >>> 4) &&& 0xf) ||| (((((c &&& 0xff0) >>> 4) % 256) &&& 0xff) <<< 4) = c) ∧
    (((c &&& 0x00f) <<< 4) % 256) &&& 0xf = 0 :=
  forall12 (p := fun c => ((((((c &&& 0x00f) <<< 4) % 256) >>> 4) &&& 0xf) |||
    (((((c &&& 0xff0) >>> 4) % 256) &&& 0xff) <<< 4) = c) ∧ (((c &&& 0x00f) <<< 4) % 256) &&& 0xf = 0)
    (by decide +kernel) c h

theorem binLoop_spec {mem} : ∀ (img : Img) (i t : Nat), (∀ c ∈ img, c < 4096) → i + 2 * img.length ≤ bufSize →
    At mem i (punchBin img) → ∃ t', binLoop mem img.length i t = .ok (img, t') ∧ t' &&& 0xf = t &&& 0xf := by
  intro img
  induction img with
  | nil => intro i t _ _ _; exact ⟨t, rfl, rfl⟩
  | cons c cs ih =>
    intro i t hc hl ha
    simp only [punchBin, List.flatMap_cons, List.cons_append, List.nil_append, At_cons] at ha
    simp only [List.length_cons] at hl
    obtain ⟨a1, a2, a3⟩ := ha
    obtain ⟨t', h1, h2⟩ := ih (i + 2) (t ||| mem i) (fun x hx => hc x (by simp [hx])) (by omega) a3
    refine ⟨t', ?_, ?_⟩
    · have e1 : i < bufSize := by omega
      have e2 : i + 1 < bufSize := by omega
      simp only [List.length_cons, binLoop, rdB, e1, e2, if_true, Res.bind_ok, h1]
      rw [a1, a2, (bin_col c (hc c (by simp))).1]
    · rw [h2, Nat.and_or_distrib_right, a1, (bin_col c (hc c (by simp))).2]
      simp

theorem punchBin_length (img : Img) : (punchBin img).length = 2 * img.length := by
  induction img with
  | nil => rfl
  | cons c cs ih => simp only [punchBin, List.flatMap_cons, List.length_append, List.length_cons, List.length_nil] at ih ⊢; omega

theorem parseBin_spec {mem len} (img : Img) (h : img.Ok) (hl : 160 ≤ len) (ha : At mem 0 (punchBin img)) :
    parseBin mem len = .ok (img, some 160) := by
  obtain ⟨t', h1, h2⟩ := binLoop_spec img 0 0 h.2 (by rw [h.1]; decide) ha
  rw [h.1] at h1
  simp only [parseBin, if_neg (Nat.not_lt.2 hl), h1, Res.bind_ok, h2]
  simp

theorem Parses_bin (img : Img) (h : img.Ok) : Parses .bin img (punchBin img) := by
  have hl := punchBin_length img
  rw [h.1] at hl
  refine ⟨by omega, by omega, ?_⟩
  intro mem len h1 h2 h3
  have := parseBin_spec (mem := mem) (len := len) img h (by omega) (At_of_getElem (by simpa using h3))
  simp only [parseCard, cardMode, Res.bind_ok, this, hl]

/-! ### EBCDIC -/

theorem ebcLoop_spec {mem len} : ∀ (es : List Nat) (cs pre : List Nat), es.length = cs.length →
    (∀ k e c : Nat, es[k]? = some e → cs[k]? = some c → ebcdicToHol e = some c) →
    pre.length + es.length ≤ len → len ≤ 8691 → At mem pre.length es →
    ebcLoop mem len es.length pre.length (pre ++ List.replicate es.length 0) = .ok (pre.length + es.length, pre ++ cs) := by
  intro es
  induction es with
  | nil => intro cs pre h _ _ _ _; cases cs <;> simp_all [ebcLoop]
  | cons e es ih =>
    intro cs pre h hr hl hl2 ha
    obtain ⟨c, cs, rfl⟩ : ∃ c cs', cs = c :: cs' := by cases cs <;> simp_all
    simp only [List.length_cons] at h hl ⊢
    rw [At_cons] at ha
    have h1 := hr 0 e c (by simp) (by simp)
    have hlt : pre.length < len := by omega
    have hb : pre.length < bufSize := by unfold bufSize; omega
    simp only [ebcLoop, if_pos hlt, rdB, if_pos hb, ha.1, Res.bind_ok, h1, look, setCol_append]
    have := ih cs (pre ++ [c]) (by omega) (fun k e' c' he hc => hr (k + 1) e' c' (by simpa using he) (by simpa using hc))
      (by simp; omega) hl2 (by simpa using ha.2)
    rw [List.length_append] at this
    simp only [List.length_singleton] at this
    rw [this]
    simp
    omega

/-- Every column is the code of some byte. -/
def Img.Ebcdic (m : Img) : Prop := ∀ c ∈ m, ∃ e, e < 256 ∧ ebcdicToHol e = some c

theorem punchEbc_spec : ∀ (img : Img), img.Ebcdic → ∃ es, punchEbc img = .ok es ∧ es.length = img.length ∧
    ∀ k e c : Nat, es[k]? = some e → img[k]? = some c → ebcdicToHol e = some c := by
  intro img
  induction img with
  | nil => intro _; exact ⟨[], rfl, rfl, by simp⟩
  | cons c cs ih =>
    intro h
    obtain ⟨es, h1, h2, h3⟩ := ih (fun x hx => h x (by simp [hx]))
    obtain ⟨e, he, hec⟩ := h c (by simp)
    obtain ⟨c', g1, g2, g3⟩ := C13_ebcdic_round_trip e he
    rw [hec] at g1; cases g1
    refine ⟨e :: es, ?_, by simp [h2], ?_⟩
    · have : 0xff &&& e = e := by
        rw [Nat.and_comm]
        have := Nat.and_two_pow_sub_one_of_lt_two_pow (x := e) (n := 8) (by simpa using he)
        simpa using this
      simp [punchEbc, g3, look, h1, this]
    · intro k e' c'' hk1 hk2
      cases k with
      | zero => simp at hk1 hk2; rw [← hk1, ← hk2]; exact hec
      | succ k => exact h3 k e' c'' (by simpa using hk1) (by simpa using hk2)

theorem Parses_ebcdic (img : Img) (hl : img.length = 80) (h : img.Ebcdic) :
    ∃ b, punchCard .ebcdic img = .ok b ∧ Parses .ebcdic img b := by
  obtain ⟨es, h1, h2, h3⟩ := punchEbc_spec img h
  refine ⟨es, h1, by omega, by omega, ?_⟩
  intro mem len g1 g2 g3
  have hb : blank = [] ++ List.replicate es.length 0 := by simp [blank, h2, hl]
  have := ebcLoop_spec (mem := mem) (len := len) es img [] h2 h3 (by simpa using g1) g2 (At_of_getElem (by simpa using g3))
  rw [← hb, show es.length = 80 by omega] at this
  have hn : ¬ len < 80 := by omega
  simp only [parseCard, cardMode, Res.bind_ok, parseEbc, if_neg hn]
  rw [show ([] : List Nat).length = 0 from rfl] at this
  rw [this]
  simp [h2, hl]

end Verif.Card
