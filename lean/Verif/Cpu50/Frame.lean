import Verif.Cpu50.Flow

/-!
# Model 2050: what a single microinstruction can change

Whatever the registers hold: storage, storage data register, addresses, key, masks and storage
keys behind one microinstruction.
-/

namespace Verif.Cpu50

/-- What no stage but the ones named changes: storage and its cycle, protection key, system
mask, AMWP bits, storage keys. -/
def S.core (s : S) : ((Nat → W) × W × Bool × MS) × (W × Bool) × (BitVec 4 × B) × (BitVec 4 × Bool) × (Nat → B) :=
  ((s.mem, s.SA, s.bump, s.ms), (s.SDR, s.updD), (s.KEY, s.MASK), (s.AMWP, s.wait), s.MP)

/-- Address register and requests for storage. -/
def S.req (s : S) : W × Bool × Bool := (s.SAR, s.initMem, s.initBump)

/-- Requests for interruptions. -/
def S.asks (s : S) : (Bool × Bool × Bool) × (Bool × Bool × Bool) × B :=
  ((s.timUp, s.timIrq, s.intr), (s.load, s.man, s.stop), s.BCHI)

theorem iv_core (e : Env) (w : Word) (x : X) : (ivStep e w x).s.core = x.s.core := by
  unfold ivStep; split <;> rfl
theorem iv_asks (e : Env) (w : Word) (x : X) : (ivStep e w x).s.asks = x.s.asks := by
  unfold ivStep; split <;> rfl
theorem iv_req (e : Env) (w : Word) (x : X) (h : w.iv ≠ 4) (h7 : w.iv ≠ 7) :
    (ivStep e w x).s.req = x.s.req := by
  unfold ivStep; split <;> first | rfl | contradiction

theorem dg_core (w : Word) (x : X) : (dgStep w x).s.core = x.s.core := by
  unfold dgStep; split <;> rfl
theorem dg_asks (w : Word) (x : X) : (dgStep w x).s.asks = x.s.asks := by
  unfold dgStep; split <;> rfl
theorem dg_req (w : Word) (x : X) : (dgStep w x).s.req = x.s.req := by
  unfold dgStep; split <;> rfl

theorem ad_core (w : Word) (x : X) : (adStep w x).s.core = x.s.core := by
  unfold adStep; split <;> rfl
theorem ad_asks (w : Word) (x : X) : (adStep w x).s.asks = x.s.asks := by
  unfold adStep; split <;> rfl
theorem ad_req (w : Word) (x : X) : (adStep w x).s.req = x.s.req := by
  unfold adStep; split <;> rfl

theorem late_s (w : Word) (x : X) : (lateB w x).s = x.s := by
  unfold lateB; split <;> rfl

theorem al_core (e : Env) (w : Word) (x : X) : (alStep e w x).s.core = x.s.core := by
  unfold alStep; split <;> rfl
theorem al_asks (e : Env) (w : Word) (x : X) : (alStep e w x).s.asks = x.s.asks := by
  unfold alStep; split <;> rfl
theorem al_req (e : Env) (w : Word) (x : X) : (alStep e w x).s.req = x.s.req := by
  unfold alStep; split <;> rfl

theorem ssE_core (w : Word) (x : X) : (ssEarly w x).s.core = x.s.core := by
  unfold ssEarly; split <;> rfl
theorem ssE_asks (w : Word) (x : X) : (ssEarly w x).s.asks = x.s.asks := by
  unfold ssEarly; split <;> rfl
theorem ssE_req (w : Word) (x : X) : (ssEarly w x).s.req = x.s.req := by
  unfold ssEarly; split <;> rfl

theorem ws_core (w : Word) (x : X) : (wsStep w x).s.core = x.s.core := by
  unfold wsStep; split <;> rfl
theorem ws_asks (w : Word) (x : X) : (wsStep w x).s.asks = x.s.asks := by
  unfold wsStep; split <;> rfl
theorem ws_req (w : Word) (x : X) : (wsStep w x).s.req = x.s.req := by
  unfold wsStep; split <;> rfl

theorem up_core (w : Word) (x : X) : (upStep w x).s.core = x.s.core := by
  unfold upStep; split <;> rfl
theorem up_asks (w : Word) (x : X) : (upStep w x).s.asks = x.s.asks := by
  unfold upStep; split <;> rfl
theorem up_req (w : Word) (x : X) : (upStep w x).s.req = x.s.req := by
  unfold upStep; split <;> rfl

theorem fin_core (w : Word) (x : X) : (finish w x).core = x.s.core := by
  unfold finish; split <;> rfl
theorem fin_asks (w : Word) (x : X) : (finish w x).asks = x.s.asks := by
  unfold finish; split <;> rfl
theorem fin_req (w : Word) (x : X) : (finish w x).req = x.s.req := by
  unfold finish; split <;> rfl

/-- The part of the microinstruction before the adder's output is stored. -/
def early (e : Env) (w : Word) (ex : Bool) (s : S) : X :=
  ssEarly w (alStep e w (lateB w (adStep w (adder (dgStep w (ivStep e w
    { front e w ex s with cin := adCin w s }))))))

theorem early_core (e : Env) (w : Word) (ex : Bool) (s : S) :
    (early e w ex s).s.core = s.core := by
  unfold early
  rw [ssE_core, al_core, late_s, ad_core]
  show (dgStep _ _).s.core = _
  rw [dg_core, iv_core]; rfl

theorem early_req (e : Env) (w : Word) (ex : Bool) (s : S) (h : w.iv ≠ 4) (h7 : w.iv ≠ 7) :
    (early e w ex s).s.req = s.req := by
  unfold early
  rw [ssE_req, al_req, late_s, ad_req]
  show (dgStep _ _).s.req = _
  rw [dg_req, iv_req _ _ _ h h7]; rfl

theorem early_asks (e : Env) (w : Word) (ex : Bool) (s : S) :
    (early e w ex s).s.asks = (front e w ex s).s.asks := by
  unfold early
  rw [ssE_asks, al_asks, late_s, ad_asks]
  show (dgStep _ _).s.asks = _
  rw [dg_asks, iv_asks]

/-- The microinstruction in three parts. -/
theorem exec_parts {e : Env} {w : Word} {ex : Bool} {s s' : S} (h : exec e w ex s = .ok s') :
    ∃ x y, trStep e w (early e w ex s) = .ok x ∧ ssLate e w x = .ok y ∧
      s' = finish w (upStep w (wmStep w (wsStep w y))) := by
  unfold exec at h
  split at h
  · cases h
  · change (trStep e w (early e w ex s)).bind _ = _ at h
    cases h2 : trStep e w (early e w ex s) with
    | oob => rw [h2] at h; cases h
    | chan => rw [h2] at h; cases h
    | ok z =>
      rw [h2] at h
      change (ssLate e w z).bind _ = _ at h
      cases h3 : ssLate e w z with
      | oob => rw [h3] at h; cases h
      | chan => rw [h3] at h; cases h
      | ok v =>
        rw [h3] at h
        cases h
        exact ⟨z, v, rfl, h3, rfl⟩

/-- Words which change the storage data register. -/
def storeTr (w : Word) : Bool := w.tr == 4 || w.tr == 13 || w.tr == 17 || w.tr == 29

/-- The protection key allows a store into the block of the addressed byte. -/
def S.allowed (s : S) : Prop := s.KEY = 0 ∨ keyIx s < 256 ∧ s.KEY.setWidth 8 = s.MP (keyIx s)

/-- Storage, its cycle, mask and AMWP bits behind the adder's output. -/
def S.rest (s : S) : ((Nat → W) × W × Bool × MS) × B × (BitVec 4 × Bool) × (Nat → B) :=
  ((s.mem, s.SA, s.bump, s.ms), s.MASK, (s.AMWP, s.wait), s.MP)

theorem protect_eq {y x' : X} {k : X → X} (h : protect y k = .ok x') :
    (x' = k y ∧ y.s.allowed) ∨ x' = { y with nro := 0x142 } := by
  unfold protect at h
  split at h
  · cases h; exact .inl ⟨rfl, .inl (by assumption)⟩
  · split at h
    · split at h
      · cases h; exact .inl ⟨rfl, .inr ⟨by assumption, by assumption⟩⟩
      · cases h; exact .inr rfl
    · cases h

theorem tr_rest {e : Env} {w : Word} {x x' : X} (h : trStep e w x = .ok x') :
    x'.s.rest = x.s.rest ∧ x'.s.asks = x.s.asks ∧ (w.tr ≠ 28 → x'.s.KEY = x.s.KEY) := by
  unfold trStep at h
  split at h <;> rename_i hw
  all_goals first
    | (cases h; exact ⟨rfl, rfl, fun _ => rfl⟩)
    | (cases h; exact ⟨rfl, rfl, fun h => absurd hw h⟩)
    | (rcases protect_eq h with ⟨h, -⟩ | h <;> (cases h; exact ⟨rfl, rfl, fun _ => rfl⟩))
    | (split at h <;> (cases h; exact ⟨rfl, rfl, fun _ => rfl⟩))

theorem tr_data {e : Env} {w : Word} {x x' : X} (h : trStep e w x = .ok x')
    (h8 : w.tr = 8 → w.ce % 8 ≠ 0 ∧ w.ce % 8 ≠ 4) :
    (x'.s.SDR = x.s.SDR ∧ x'.s.updD = x.s.updD) ∨
      (x.s.allowed ∧ x'.s.updD = true ∧ storeTr w = true) := by
  unfold trStep at h
  split at h <;> rename_i hw
  all_goals first
    | (cases h; exact .inl ⟨rfl, rfl⟩)
    | skip
  all_goals first
    | (rcases protect_eq h with ⟨h, h2⟩ | h
       · cases h; exact .inr ⟨h2, rfl, by unfold storeTr; rw [hw]; rfl⟩
       · cases h; exact .inl ⟨rfl, rfl⟩)
    | skip
  split at h <;> rename_i hc
  · exact absurd hc (h8 hw).1
  · cases h; exact .inl ⟨rfl, rfl⟩
  · cases h; exact .inl ⟨rfl, rfl⟩
  · exact absurd hc (h8 hw).2
  · cases h; exact .inl ⟨rfl, rfl⟩
  · cases h; exact .inl ⟨rfl, rfl⟩

theorem tr_req {e : Env} {w : Word} {x x' : X} (h : trStep e w x = .ok x')
    (h9 : w.tr ≠ 9) (h10 : w.tr ≠ 10) (h11 : w.tr ≠ 11) :
    x'.s.initBump = x.s.initBump ∧
    (x'.s.SAR = x.s.SAR ∧ x'.s.initMem = x.s.initMem ∨ x'.s.initMem = true) := by
  unfold trStep at h
  split at h <;> rename_i hw
  all_goals first
    | contradiction
    | (cases h; exact ⟨rfl, .inl ⟨rfl, rfl⟩⟩)
    | (cases h; exact ⟨rfl, .inr rfl⟩)
    | (rcases protect_eq h with ⟨h, -⟩ | h <;> (cases h; exact ⟨rfl, .inl ⟨rfl, rfl⟩⟩))
    | (split at h <;> (cases h; first | exact ⟨rfl, .inl ⟨rfl, rfl⟩⟩ | exact ⟨rfl, .inr rfl⟩))

/-- Words which can start a storage reference. -/
def iniW (w : Word) : Bool :=
  w.tr == 6 || w.tr == 8 || w.tr == 9 || w.tr == 10 || w.tr == 11 || w.tr == 15 || w.tr == 16 ||
  w.iv == 4 || w.iv == 7 || w.wm == 8

theorem tr_ini {e : Env} {w : Word} {x x' : X} (h : trStep e w x = .ok x')
    (hi : iniW w = false) : x'.s.req = x.s.req := by
  unfold iniW at hi
  simp only [Bool.or_eq_false_iff, beq_eq_false_iff_ne] at hi
  obtain ⟨⟨⟨⟨⟨⟨⟨⟨⟨h6, h8⟩, h9⟩, h10⟩, h11⟩, h15⟩, h16⟩, -⟩, -⟩, -⟩ := hi
  unfold trStep at h
  split at h
  all_goals first
    | contradiction
    | (cases h; rfl)
    | (rcases protect_eq h with ⟨h, -⟩ | h <;> (cases h; rfl))

theorem ssL_core {e : Env} {w : Word} {x x' : X} (h : ssLate e w x = .ok x')
    (h1 : w.ss ≠ 31) (h2 : w.ss ≠ 56) : x'.s.core = x.s.core := by
  unfold ssLate at h
  split at h
  all_goals first
    | contradiction
    | (cases h; rfl)
    | (split at h <;> first | (cases h; rfl) | cases h)

theorem ssL_req {e : Env} {w : Word} {x x' : X} (h : ssLate e w x = .ok x') :
    x'.s.req = x.s.req := by
  unfold ssLate at h
  split at h
  all_goals first
    | (cases h; rfl)
    | (split at h <;> first | (cases h; rfl) | cases h)

/-- Everything of `core` but the storage keys and the AMWP bits. -/
def S.most (s : S) : ((Nat → W) × W × Bool × MS) × (W × Bool) × (BitVec 4 × B) :=
  ((s.mem, s.SA, s.bump, s.ms), (s.SDR, s.updD), (s.KEY, s.MASK))

theorem ssL_most {e : Env} {w : Word} {x x' : X} (h : ssLate e w x = .ok x') :
    x'.s.most = x.s.most := by
  unfold ssLate at h
  split at h
  all_goals first
    | (cases h; rfl)
    | (split at h <;> first | (cases h; rfl) | cases h)

theorem ssL_keys {e : Env} {w : Word} {x x' : X} (h : ssLate e w x = .ok x') (h1 : w.ss ≠ 31) :
    x'.s.MP = x.s.MP := by
  unfold ssLate at h
  split at h
  all_goals first
    | contradiction
    | (cases h; rfl)
    | (split at h <;> first | (cases h; rfl) | cases h)

theorem wm_core (w : Word) (x : X) (h : w.wm ≠ 5) : (wmStep w x).s.core = x.s.core := by
  unfold wmStep; split <;> first | rfl | contradiction

/-- Everything of `core` but the system mask. -/
def S.but (s : S) : ((Nat → W) × W × Bool × MS) × (W × Bool) × (BitVec 4) × (BitVec 4 × Bool) × (Nat → B) :=
  ((s.mem, s.SA, s.bump, s.ms), (s.SDR, s.updD), s.KEY, (s.AMWP, s.wait), s.MP)

theorem wm_but (w : Word) (x : X) : (wmStep w x).s.but = x.s.but := by
  unfold wmStep; split <;> rfl

theorem wm_req (w : Word) (x : X) :
    (wmStep w x).s.initMem = x.s.initMem ∧
    ((wmStep w x).s.req = x.s.req ∨ (wmStep w x).s.initBump = true ∧ w.wm = 8) := by
  unfold wmStep; split <;> first | exact ⟨rfl, .inl rfl⟩ | exact ⟨rfl, .inr ⟨rfl, by assumption⟩⟩

end Verif.Cpu50
