import Verif.Proofs.NoTrap
import Verif.Proofs.DivVal
/-!
# Multiplication, division, remainder and rounding: no overflow of an intermediate result
-/

namespace Fxd
open Spec

namespace NoTrap
variable {σ α β : Type} {m : Mode}

/-! ## Multiplication -/

theorem mul_acc {x y o c : Int} (hx : 0 ≤ x ∧ x < 1000000000) (hy : 0 ≤ y ∧ y < 1000000000) (ho : 0 ≤ o ∧ o < 1000000000)
    (hc : 0 ≤ c ∧ c < 1000000000) : 0 ≤ x * y ∧ x * y ≤ 999999998000000001 ∧
      0 ≤ (x * y + o + c).tdiv 1000000000 ∧ (x * y + o + c).tdiv 1000000000 < 1000000000 ∧
      0 ≤ x * y + o + c - (x * y + o + c).tdiv 1000000000 * 1000000000 ∧
      x * y + o + c - (x * y + o + c).tdiv 1000000000 * 1000000000 < 1000000000 := by
  have h0 : 0 ≤ x * y := mul_nonneg hx.1 hy.1
  have h1 : x * y ≤ 999999999 * 999999999 := mul_le_mul (by omega) (by omega) hy.1 (by norm_num)
  rw [Int.tdiv_eq_ediv_of_nonneg (by omega)]
  omega

theorem mulInner {rv ri sh : Int} (hr : 0 ≤ rv ∧ rv < 1000000000) : ∀ (l : List Int) (i k c : Int) (res : List Int), DigL l →
    (0 ≤ c ∧ c < 1000000000) → DigL res →
    NoTrap .overflow (fun r => (0 ≤ r.2.1 ∧ r.2.1 < 1000000000) ∧ DigL r.2.2) (Fxd.mulInner m rv ri sh l i k c res : Out σ _)
  | [], _, _, _, _, _, hc, h => ⟨hc, h⟩
  | v :: l, i, k, c, res, hl, hc, h => by
    have hv := hl v (by simp)
    have hl' : DigL l := fun u hu => hl u (by simp [hu])
    unfold Fxd.mulInner UNIT
    dsimp only
    refine .ite (fun _ => mulInner hr l _ _ _ _ hl' hc h) fun _ => .ite (fun _ => ?_) fun _ => ?_
    · have := mul_acc hv hr (o := 0) (c := 0) (by omega) (by omega)
      simp only [add_zero] at this
      refine .bind (.i64 (by omega) (by omega)) ?_
      rintro _ rfl
      exact .ite (fun _ => mulInner hr l _ _ _ _ hl' hc h) fun _ => mulInner hr l _ _ _ _ hl' (by omega) h
    · have h0 := mul_acc hv hr (o := 0) (c := 0) (by omega) (by omega)
      refine .bind (.i64 (by omega) (by omega)) ?_
      rintro _ rfl
      refine .bind (.dig h) fun o ho => ?_
      have := mul_acc hv hr ho hc
      refine .bind (.i64 (by omega) (by omega)) ?_
      rintro _ rfl
      refine .bind (.i64 (by omega) (by omega)) ?_
      rintro _ rfl
      generalize (v * rv + o + c).tdiv 1000000000 = c' at *
      refine .bind (.i64 (by omega) (by omega)) ?_
      rintro _ rfl
      refine .bind (.i64 (by omega) (by omega)) ?_
      rintro _ rfl
      rw [wrap32_ok (by omega) (by omega)]
      exact .bind (.upd h (by omega)) fun res h => mulInner hr l _ _ _ _ hl' (by omega) h

theorem mulOuter {lu : List Int} (hl : DigL lu) {sh : Int} {back : List Int → σ} : ∀ (l : List Int) (i : Int) (res : List Int),
    DigL l → DigL res → NoTrap .overflow (fun _ => True) (Fxd.mulOuter m lu sh back l i res : Out σ _)
  | [], _, _, _, _ => trivial
  | v :: l, i, res, h1, h => by
    have hv := h1 v (by simp)
    have h1' : DigL l := fun u hu => h1 u (by simp [hu])
    unfold Fxd.mulOuter
    refine .bind (.mulInner hv _ _ _ _ _ hl (by omega) h) ?_
    rintro ⟨k, c, res⟩ ⟨hc, h⟩
    dsimp only at hc h ⊢
    refine .bind .dassert fun _ _ => .ite (fun _ => ?_) fun _ => .ite (fun _ => .err) fun _ => mulOuter hl l _ _ h1' h
    refine .bind (.upd h ?_) fun res h => mulOuter hl l _ _ h1' h
    rw [wrap32_ok (by omega) (by omega)]
    exact hc

theorem mulUnits {l : List Int} (hl : DigL l) {n : Int} {r : List Int} : NoTrap .overflow DigL (Fxd.mulUnits l n r : Out σ (List Int)) := by
  cases r
  · exact .ok fun u hu => by cases hu
  · exact .slice hl

theorem mulAbs {a b : FixedDecimal} (ha : WF a) (hb : WF b) (res : FixedDecimal) (hi : intgDigits a + intgDigits b < 120)
    (hf : fracDigits a + fracDigits b < 120) : NoTrap .overflow (fun _ => True) (Fxd.mulAbs m a b res) := by
  have da : DigL a.lsu := ha.units
  have db : DigL b.lsu := hb.units
  have fa := ha.frac_eq
  have fb := hb.frac_eq
  have f1 := fracDigits_le_fu a
  have f2 := fracDigits_le_fu b
  unfold Fxd.mulAbs
  dsimp only
  rw [intgDigits_eq, intgDigits_eq]
  have hi' : (intgDigits a : Int) + intgDigits b < 120 := by exact_mod_cast hi
  have hi0 : 0 ≤ (intgDigits a : Int) + intgDigits b := by positivity
  rw [i8_ok (by omega) (by omega), ok_bind]
  generalize (intgDigits a : Int) + intgDigits b = di at hi' hi0 ⊢
  refine .bind (.getUnits (by omega) (by omega)) fun ri hri => ?_
  rw [i8_ok (by omega) (by omega), ok_bind]
  refine .bind (.getUnits (by omega) (by omega)) fun rf hrf => ?_
  refine .ite (fun _ => .err) fun hle => ?_
  refine .bind (.intgUnits ha) ?_; rintro _ rfl
  refine .bind (.fracUnits ha) ?_; rintro _ rfl
  refine .bind (.intgUnits hb) ?_; rintro _ rfl
  refine .bind (.fracUnits hb) ?_; rintro _ rfl
  have h1 := ha.fits
  have h2 := hb.fits
  have hle' : ri ≤ 9 := by
    have : (MAX_UNITS : Int) = 9 := rfl
    omega
  have key : 0 ≤ (if (if ri + rf > MAX_UNITS then MAX_UNITS - ri else rf) > MAX_FRAC_UNITS then MAX_FRAC_UNITS
      else if ri + rf > MAX_UNITS then MAX_UNITS - ri else rf) ∧
      (if (if ri + rf > MAX_UNITS then MAX_UNITS - ri else rf) > MAX_FRAC_UNITS then MAX_FRAC_UNITS
      else if ri + rf > MAX_UNITS then MAX_UNITS - ri else rf) ≤ rf := by
    simp only [MAX_UNITS, MAX_FRAC_UNITS]
    split_ifs <;> omega
  refine .bind (.usz (by omega) (by omega)) fun _ _ => ?_
  refine .bind (.slice db) fun ru hru => .bind (.mulUnits da) fun lu hlu => ?_
  exact .bind (.mulOuter hlu _ _ _ hru setZero_dig) fun _ _ => .pure trivial

/-! ## Division -/

theorem shortDivLoop {l : List Int} (hl : DigL l) {d : Int} (hd : 0 ≤ d ∧ d < 1000000000) : ∀ (n : Nat) (i r : Int) (res : List Int),
    (0 ≤ r ∧ r < 1000000000) → NoTrap .overflow (fun _ => True) (Fxd.shortDivLoop m l d n i r res : Out σ _)
  | 0, _, _, _, _ => trivial
  | n + 1, i, r, res, hr => by
    unfold Fxd.shortDivLoop UNIT
    refine .bind (.i64 (by omega) (by omega)) ?_
    rintro _ rfl
    refine .bind (P := fun u => 0 ≤ u ∧ u < 1000000000000000000) ?_ fun u hu => ?_
    · refine .ite (fun _ => .bind (.dig hl) fun v hv => (NoTrap.i64 (by omega) (by omega)).mono ?_) fun _ => ?_
      · rintro _ rfl; omega
      · exact .ok (by omega)
    refine .bind (.idiv (by omega)) ?_
    rintro _ ⟨hd0, rfl⟩
    rw [Int.tdiv_eq_ediv_of_nonneg (by omega)]
    have hdp : 0 < d := by omega
    have e1 := Int.ediv_mul_le u hd0
    have e2 := Int.lt_ediv_add_one_mul_self u hdp
    have e3 : 0 ≤ u / d * d := mul_nonneg (Int.ediv_nonneg (by omega) (by omega)) (by omega)
    have e4 : (u / d + 1) * d = u / d * d + d := by ring
    refine .bind (.i64 (by omega) (by omega)) ?_
    rintro _ rfl
    refine .bind (.i64 (by omega) (by omega)) ?_
    rintro _ rfl
    exact .bind .updAny fun res _ => shortDivLoop hl hd n _ _ _ (by omega)

theorem guessQ {buf : List Int} (hb : DigL buf) {i d0 d1 : Int} (hn : 500000000 ≤ d0) (hd0 : d0 < 1000000000)
    (hd1 : 0 ≤ d1 ∧ d1 < 1000000000) : NoTrap .overflow (fun q => 0 ≤ q ∧ q ≤ 2000000000) (Fxd.guessQ m buf i d0 d1 : Out σ Int) := by
  unfold Fxd.guessQ UNIT
  refine .bind (.dig hb) fun u0 h0 => ?_
  refine .bind (P := fun v => 0 ≤ v ∧ v < 1000000000) (.ite (fun _ => .dig hb) fun _ => ⟨le_refl _, by norm_num⟩) fun u1 h1 => ?_
  refine .bind (.i64 (by omega) (by omega)) ?_
  rintro _ rfl
  refine .bind (.i64 (by omega) (by omega)) ?_
  rintro _ rfl
  obtain ⟨u, hu⟩ : ∃ u, u0 * 1000000000 + u1 = u := ⟨_, rfl⟩
  rw [hu]
  have hq := Int.ediv_mul_le u (show d0 ≠ 0 by omega)
  have hq0 : 0 ≤ u / d0 := Int.ediv_nonneg (by omega) (by omega)
  have hw0 : 0 ≤ u / d0 * d0 := mul_nonneg hq0 (by omega)
  refine .bind (.idiv (by omega)) ?_
  rintro _ ⟨-, rfl⟩
  rw [Int.tdiv_eq_ediv_of_nonneg (by omega)]
  refine .bind (.i64 (by omega) (by omega)) ?_
  rintro _ rfl
  refine .bind (.i64 (by omega) (by omega)) ?_
  rintro _ rfl
  refine .bind .dassert fun _ _ => ?_
  refine .bind (P := fun v => 0 ≤ v ∧ v < 1000000000) (.ite (fun _ => .dig hb) fun _ => ⟨le_refl _, by norm_num⟩) fun u2 h2 => ?_
  obtain ⟨T, hT0, hT1, h⟩ := qhat_same (m := m) (σ := σ) hn hd0 hd1 (u := u) (by omega) h2
  exact .of_eq (h qhatFuel (Or.inl (by decide))) ⟨hT0, hT1⟩

theorem mulSub {q : Int} (hq : 0 ≤ q ∧ q ≤ 2000000000) {buf2 : List Int} (h2 : DigL buf2) :
    ∀ (n : Nat) (k ms : Int) (buf1 : List Int) (c b : Int), DigL buf1 → (0 ≤ c ∧ c ≤ 2000000000) → (b = 0 ∨ b = -1) →
      NoTrap .overflow (fun r => DigL r.1 ∧ (0 ≤ r.2.1 ∧ r.2.1 ≤ 2000000000) ∧ (r.2.2 = 0 ∨ r.2.2 = -1))
        (Fxd.mulSub m q buf2 n k ms buf1 c b : Out σ _)
  | 0, _, _, _, _, _, h1, hc, hb => ⟨h1, hc, hb⟩
  | n + 1, k, ms, buf1, c, b, h1, hc, hb => by
    unfold Fxd.mulSub UNIT
    refine .bind (.dig h2) fun d hd => ?_
    have := mul_step hq hd hc
    refine .bind (.i64 (by omega) (by omega)) ?_
    rintro _ rfl
    refine .bind (.i64 (by omega) (by omega)) ?_
    rintro _ rfl
    dsimp only
    generalize (q * d + c).tdiv 1000000000 = c' at *
    refine .bind (.i64 (by omega) (by omega)) ?_
    rintro _ rfl
    refine .bind (.i64 (by omega) (by omega)) ?_
    rintro _ rfl
    rw [wrap32_ok (by omega) (by omega)]
    refine .ite (fun _ => ?_) fun _ => ?_
    · refine .bind (.subBorrow (by omega) (by omega) hb) ?_
      rintro ⟨s, b0⟩ ⟨hs, hb0⟩
      exact mulSub hq h2 n _ _ _ _ _ h1 (by omega) hb0
    · refine .bind (.dig h1) fun old ho => ?_
      refine .bind (.subBorrow ho (by omega) hb) ?_
      rintro ⟨s, b0⟩ ⟨hs, hb0⟩
      refine .bind (.upd h1 hs) fun buf1 h1 => ?_
      exact mulSub hq h2 n _ _ _ _ _ h1 (by omega) hb0

theorem divAddBack {j : Int} : ∀ (n : Nat) (i : Int) (buf1 : List Int) (b : Int), DigL buf1 → (b = 0 ∨ b = -1) →
      NoTrap .overflow DigL (Fxd.divAddBack m j n i buf1 b : Out σ _)
  | 0, _, _, _, h1, _ => h1
  | n + 1, i, buf1, b, h1, hb => by
    unfold Fxd.divAddBack
    refine .bind (.dig h1) fun old ho => ?_
    refine .bind (.subBorrow (by omega) ho hb) ?_
    rintro ⟨s, b0⟩ ⟨hs, hb0⟩
    exact .bind (.upd h1 hs) fun buf1 h1 => divAddBack n _ _ _ h1 hb0

theorem longDivLoop {buf2 : List Int} (h2 : DigL buf2) {nr d0 d1 : Int} (hn : 500000000 ≤ d0) (hd0 : d0 < 1000000000)
    (hd1 : 0 ≤ d1 ∧ d1 < 1000000000) : ∀ (n : Nat) (i : Int) (buf1 res : List Int), DigL buf1 →
      NoTrap .overflow (fun _ => True) (Fxd.longDivLoop m buf2 nr d0 d1 n i buf1 res : Out σ _)
  | 0, _, _, _, _ => trivial
  | n + 1, i, buf1, res, h1 => by
    unfold Fxd.longDivLoop
    dsimp only
    refine .bind (.guessQ h1 hn hd0 hd1) fun q hq => ?_
    refine .bind (.mulSub hq h2 _ _ _ _ _ _ h1 (by omega) (Or.inl rfl)) ?_
    rintro ⟨buf1, c, b⟩ ⟨h1, hc, hb⟩
    dsimp only at h1 hc hb ⊢
    refine .bind (.dig h1) fun top ht => ?_
    rw [wrap32_ok (by omega) (by omega)]
    refine .bind (.i32 (by omega) (by omega)) ?_
    rintro _ rfl
    refine .bind (.i32 (by omega) (by omega)) ?_
    rintro _ rfl
    refine .ite (fun _ => ?_) fun _ => ?_
    · refine .bind (.i64 (by omega) (by omega)) fun q _ => ?_
      refine .bind (.divAddBack _ _ _ _ h1 (Or.inl rfl)) fun buf1 h1 => ?_
      exact .bind .updAny fun res _ => longDivLoop h2 hn hd0 hd1 n _ _ _ h1
    · refine .bind (.upd h1 (by omega)) fun buf1 h1 => ?_
      exact .bind .updAny fun res _ => longDivLoop h2 hn hd0 hd1 n _ _ _ h1

theorem norm {f : Int} (hf0 : 0 < f) (hf1 : f ≤ 500000000) {l : List Int} (hl : DigL l) :
    NoTrap .overflow (fun r => DigL r.1 ∧ r.1.length = l.length ∧ 0 ≤ r.2 ∧ r.2 < f ∧
      unitsVal l * f = unitsVal r.1 + 1000000000 ^ l.length * r.2) (Fxd.normLoop m f l 0 : Out σ _) := by
  obtain ⟨l', c', e, h1, h2, h3, h4, h5⟩ := normLoop_spec (σ := σ) (m := m) hf0 (by omega) l 0 hl (le_refl _) hf0
  exact .of_eq e ⟨h2, h1, h3, h4, by simpa using h5⟩

theorem prepare {B : List Int} (hB : DigL B) {nr : Nat} {z1 z2 : List Int} (hz1 : DigL z1) (hz2 : DigL z2)
    (hr : nr < B.length) (ht : 0 < dg B nr) {f : Int} (hf : f = 1000000000 / (dg B nr + 1)) {p1 e1 p2 e2 : Int}
    {lseg rseg : List Int} (hl : DigL lseg) (hrs : rseg = B.take (nr + 1)) :
    NoTrap .overflow (fun r => DigL r.1 ∧ 0 ≤ p2 ∧ Ready r.2 (p2.toNat + nr)) (
      if f = 1 then do
        let buf1 ← copyFromSlice z1 p1 e1 lseg
        let buf2 ← copyFromSlice z2 p2 e2 rseg
        return (buf1, buf2)
      else do
        let (l, carry) ← normLoop m f lseg 0
        let buf1 ← copyFromSlice z1 p1 e1 l
        let buf1 ← (if carry > 0 then Fxd.upd buf1 e1 (wrap 32 carry) else .ok buf1)
        let (r, carry) ← normLoop m f rseg (if carry > 0 then 0 else carry)
        let buf2 ← copyFromSlice z2 p2 e2 r
        Fxd.dassert m (carry == 0)
        return (buf1, buf2) : Out σ (List Int × List Int)) := by
  refine .of_ret ?_ (Fxd.prepare hB hz1 hz2 hr ht hf hl hrs)
  have hd := hB.dig nr
  obtain ⟨f0, f1, -, -⟩ := norm_facts ht hd.2
  rw [← hf] at f0 f1
  have hrd : DigL rseg := by rw [hrs]; exact hB.take _
  refine .ite (fun _ => ?_) fun _ => ?_
  · exact .bind .copyAny fun buf1 _ => .bind .copyAny fun buf2 _ => .pure trivial
  · refine .bind (.norm f0 f1 hl) ?_
    rintro ⟨l, c⟩ ⟨-, -, hc0, hc1, -⟩
    dsimp only at hc0 hc1 ⊢
    refine .bind .copyAny fun buf1 _ => ?_
    refine .bind (P := fun _ => True) (.ite (fun _ => updAny.mono fun _ _ => trivial) fun _ => trivial) fun buf1 _ => ?_
    rw [show (if c > 0 then 0 else c) = 0 by split_ifs <;> omega]
    refine .bind (.norm f0 f1 hrd) ?_
    rintro ⟨r, c2⟩ -
    exact .bind .copyAny fun buf2 _ => .bind .dassert fun _ _ => .pure trivial

theorem divTail {a b : FixedDecimal} (ha : WF a) (hb : WF b) {nl nr : Nat} (tr : Top b.lsu nr) (sh I ri rf st : Int) :
    NoTrap .overflow (fun _ => True) (Fxd.divTail m a b nl nr sh I ri rf st) := by
  have da : DigL a.lsu := ha.units
  have db : DigL b.lsu := hb.units
  have htr : nr < b.lsu.length := tr.lt
  unfold Fxd.divTail UNIT
  dsimp only
  refine .ite (fun _ => ?_) fun _ => ?_
  · refine .bind (.dig db) fun d hd => ?_
    refine .bind (P := fun v => 0 ≤ v ∧ v < 1000000000) (.ite (fun _ => .ok (da.dig _)) fun _ => .ok (by omega)) fun r hr => ?_
    exact .bind (.shortDivLoop da hd _ _ _ _ hr) fun _ _ => .pure trivial
  · refine .bind (.idiv (by omega)) ?_
    rintro f ⟨-, hf⟩
    rw [Int.toNat_natCast, Int.tdiv_eq_ediv_of_nonneg (by norm_num)] at hf
    refine .bind (prepare (lseg := a.lsu.take ((nl : Int) + 1).toNat) (rseg := b.lsu.take ((nr : Int) + 1).toNat) db (.replicate 18)
      .zeroUnits htr tr.pos hf (da.take _) (by congr 1)) ?_
    rintro ⟨buf1, buf2⟩ ⟨h1, -, h2, h3⟩
    dsimp only at h1 h2 h3 ⊢
    refine .bind .idx ?_
    rintro _ ⟨-, -, rfl⟩
    refine .bind (.dig h2) fun d1 hd1 => ?_
    exact .bind (.longDivLoop h2 (by simpa using h3) (h2.dig _).2 hd1 _ _ _ _ h1) fun _ _ => .pure trivial

/-- Debug builds: a digit count of 120 to 127 overflows, any other one does not. -/
theorem getUnits_trap {x : Int} (h : 120 ≤ x) (h' : x < 128) : (Fxd.getUnits .debug x : Out σ Int) = .panic .overflow := by
  unfold Fxd.getUnits Fxd.i8 sarith
  rw [if_neg (by norm_num; omega)]
  rfl

theorem wrap8_high {x : Int} (h : 128 ≤ x) (h' : x < 384) : wrap 8 x = x - 256 := by
  unfold Fxd.wrap
  norm_num
  rw [Int.bmod_def]
  split_ifs <;> omega

theorem divFit {a b : FixedDecimal} (ha : WF a) (hb : WF b) {nl nr : Nat} (tl : Top a.lsu nl) (tr : Top b.lsu nr) (rf : Int)
    (h : ¬ (120 ≤ quoIntg a b ∧ quoIntg a b ≤ 127)) (h' : ¬ (-126 ≤ quoIntg a b ∧ quoIntg a b ≤ -119)) :
    NoTrap .overflow (fun _ => True) (Fxd.divFit m a b nl nr rf) := by
  have hr := divIntg_pos ha hb tl tr
  unfold divPos at hr
  have h1 := tl.lt
  have h2 := tr.lt
  rw [ha.len] at h1
  rw [hb.len] at h2
  have h3 := ha.fits
  have h4 := hb.fits
  have h5 := divSh_cases a b nl nr
  rw [quoIntg_eq ha hb tl tr] at h h'
  unfold Fxd.divFit
  dsimp only
  generalize divIntg a b nl nr = I at *
  refine .ite (fun h0 => ?_) fun h0 => ?_
  · refine .bind (P := fun _ => True) ?_ fun _ _ => .ite (fun _ => .err) fun _ => .divTail ha hb tr _ _ _ _ _
    by_cases hI : I ≤ 127
    · rw [wrap8_ok (by omega) (by omega)]
      exact (NoTrap.getUnits (by omega) (by omega)).mono fun _ _ => trivial
    · rw [wrap8_high (by omega) (by omega)]
      exact (NoTrap.getUnits (by omega) (by omega)).mono fun _ _ => trivial
  · refine .bind (P := fun _ => True) ?_ fun _ _ => .divTail ha hb tr _ _ _ _ _
    by_cases hI : 1 - I ≤ 127
    · rw [wrap8_ok (by omega) (by omega)]
      exact (NoTrap.getUnits (by omega) (by omega)).mono fun _ _ => trivial
    · rw [wrap8_high (by omega) (by omega)]
      exact (NoTrap.getUnits (by omega) (by omega)).mono fun _ _ => trivial

end NoTrap
end Fxd
