import Verif.Proofs.NoTrapOps
/-!
# Remainder and rounding: no overflow of an intermediate result
-/

namespace Fxd
open Spec

namespace NoTrap
variable {σ α β : Type} {m : Mode}

/-! ## Remainder -/

theorem shortRemLoop {l : List Int} (hl : DigL l) {d : Int} (hd : 0 ≤ d ∧ d < 1000000000) : ∀ (n : Nat) (i r : Int),
    (0 ≤ r ∧ r < 1000000000) → NoTrap .overflow (fun r => 0 ≤ r ∧ r < 1000000000) (Fxd.shortRemLoop m l d n i r : Out σ _)
  | 0, _, _, h => h
  | n + 1, i, r, hr => by
    unfold Fxd.shortRemLoop UNIT
    refine .bind (.i64 (by omega) (by omega)) ?_
    rintro _ rfl
    refine .bind (.dig hl) fun v hv => ?_
    refine .bind (.i64 (by omega) (by omega)) ?_
    rintro _ rfl
    obtain ⟨u, hu⟩ : ∃ u, r * 1000000000 + v = u := ⟨_, rfl⟩
    rw [hu]
    refine .bind (.idiv (by omega)) ?_
    rintro _ ⟨hd0, rfl⟩
    rw [Int.tdiv_eq_ediv_of_nonneg (by omega)]
    have hdp : 0 < d := by omega
    have e1 := Int.ediv_mul_le u hd0
    have e2 := Int.lt_ediv_add_one_mul_self u hdp
    have e3 : 0 ≤ u / d * d := mul_nonneg (Int.ediv_nonneg (by omega) (by omega)) (by omega)
    have e4 : (u / d + 1) * d = u / d * d + d := by ring
    refine .bind (.i64 (by omega) (by omega)) ?_
    rintro _ rfl
    refine .bind (.i64 (by omega) (by omega)) ?_
    rintro _ rfl
    exact shortRemLoop hl hd n _ _ (by omega)

theorem remCopyLoop {buf : List Int} (hb : DigL buf) : ∀ (n : Nat) (res : List Int) (z : Int), DigL res → res.length = 9 → z ≤ 8 →
    NoTrap .overflow (fun r => DigL r.1 ∧ r.2 ≤ 8) (Fxd.remCopyLoop buf n res z : Out σ _)
  | 0, _, _, h, _, hz => ⟨h, hz⟩
  | n + 1, res, z, h, hlen, hz => by
    unfold Fxd.remCopyLoop
    refine .bind (.dig hb) fun v hv => .bind .updAny ?_
    rintro _ ⟨h0, h1, rfl⟩
    refine remCopyLoop hb n _ _ (h.set hv) (by simpa using hlen) ?_
    split_ifs <;> omega

theorem mulSubSeg {q : Int} (hq : 0 ≤ q ∧ q ≤ 2000000000) :
    ∀ (s1 s2 : List Int) (c b : Int), DigL s1 → DigL s2 → (0 ≤ c ∧ c ≤ 2000000000) → (b = 0 ∨ b = -1) →
      NoTrap .overflow (fun r => DigL r.1 ∧ (0 ≤ r.2.1 ∧ r.2.1 ≤ 2000000000) ∧ (r.2.2 = 0 ∨ r.2.2 = -1)) (Fxd.mulSubSeg m q s1 s2 c b : Out σ _)
  | [], _, _, _, h1, _, hc, hb => by unfold Fxd.mulSubSeg; exact ⟨h1, hc, hb⟩
  | b1 :: s1, [], _, _, h1, _, hc, hb => by unfold Fxd.mulSubSeg; exact ⟨h1, hc, hb⟩
  | b1 :: s1, d :: s2, c, b, h1, h2, hc, hb => by
    unfold Fxd.mulSubSeg UNIT
    have hd := h2 d (by simp)
    have hb1 := h1 b1 (by simp)
    have := mul_step hq hd hc
    refine .bind (.i64 (by omega) (by omega)) ?_
    rintro _ rfl
    refine .bind (.i64 (by omega) (by omega)) ?_
    rintro _ rfl
    dsimp only
    generalize (q * d + c).tdiv 1000000000 = c' at *
    refine .bind (.i64 (by omega) (by omega)) ?_
    rintro _ rfl
    refine .bind (.i64 (by omega) (by omega)) ?_
    rintro _ rfl
    rw [wrap32_ok (by omega) (by omega)]
    refine .bind (.subBorrow hb1 (by omega) hb) ?_
    rintro ⟨s, b0⟩ ⟨hs, hb0⟩
    refine .bind (mulSubSeg hq s1 s2 _ _ (fun u hu => h1 u (by simp [hu])) (fun u hu => h2 u (by simp [hu])) (by omega) hb0) ?_
    rintro ⟨r, cf, bf⟩ ⟨hr, h⟩
    exact .pure ⟨DigL.cons hs hr, h⟩

theorem negSeg : ∀ (s : List Int) (b : Int), DigL s → (b = 0 ∨ b = -1) → NoTrap .overflow DigL (Fxd.negSeg m s b : Out σ _)
  | [], _, h, _ => h
  | v :: s, b, h, hb => by
    unfold Fxd.negSeg
    refine .bind (.subBorrow (by omega) (h v (by simp)) hb) ?_
    rintro ⟨r, b0⟩ ⟨hs, hb0⟩
    refine .bind (negSeg s _ (fun u hu => h u (by simp [hu])) hb0) fun r hr => ?_
    exact .pure (DigL.cons hs hr)

theorem longRemLoop {buf2 : List Int} (h2 : DigL buf2) {d0 d1 : Int} (hn : 500000000 ≤ d0) (hd0 : d0 < 1000000000)
    (hd1 : 0 ≤ d1 ∧ d1 < 1000000000) : ∀ (n : Nat) (i : Int) (buf1 : List Int), DigL buf1 →
      NoTrap .overflow DigL (Fxd.longRemLoop m buf2 d0 d1 n i buf1 : Out σ _)
  | 0, _, _, h => h
  | n + 1, i, buf1, h1 => by
    unfold Fxd.longRemLoop
    dsimp only
    refine .bind (.guessQ h1 hn hd0 hd1) fun q hq => ?_
    refine .bind (.slice h1) fun seg hs => ?_
    refine .bind (.mulSubSeg hq _ _ _ _ hs h2 (by omega) (Or.inl rfl)) ?_
    rintro ⟨seg, c, b⟩ ⟨hs, hc, hb⟩
    dsimp only at hs hc hb ⊢
    refine .bind (.copy h1 hs) fun buf1 h1 => ?_
    refine .bind (.dig h1.1) fun top ht => ?_
    rw [wrap32_ok (by omega) (by omega)]
    refine .bind (.i32 (by omega) (by omega)) ?_
    rintro _ rfl
    refine .bind (.i32 (by omega) (by omega)) ?_
    rintro _ rfl
    refine .ite (fun _ => ?_) fun _ => ?_
    · refine .bind (.slice h1.1) fun seg hs => ?_
      refine .bind (.negSeg _ _ hs (Or.inl rfl)) fun seg hs => ?_
      refine .bind (.copy h1.1 hs) fun buf1 h1 => ?_
      exact .bind (.upd h1.1 (by omega)) fun buf1 h1 => longRemLoop h2 hn hd0 hd1 n _ _ h1
    · exact .bind (.upd h1.1 (by omega)) fun buf1 h1 => longRemLoop h2 hn hd0 hd1 n _ _ h1

theorem unnormLoop {buf : List Int} (hb : DigL buf) {f : Int} (hf0 : 0 < f) (hf1 : f < 1000000000) : ∀ (i : Nat) (r z : Int)
    (res : List Int), (0 ≤ r ∧ r < f) → z ≤ 8 → DigL res → res.length = 9 →
      NoTrap .overflow (fun p => DigL p.1 ∧ p.2.2 ≤ 8) (Fxd.unnormLoop m buf f i r z res : Out σ _)
  | 0, _, _, _, _, hz, h, _ => ⟨h, hz⟩
  | n + 1, r, z, res, hr, hz, h, hlen => by
    unfold Fxd.unnormLoop UNIT
    refine .bind (.i64 (by omega) (by omega)) ?_
    rintro _ rfl
    refine .bind (.dig hb) fun v hv => ?_
    refine .bind (.i64 (by omega) (by omega)) ?_
    rintro _ rfl
    obtain ⟨u, hu⟩ : ∃ u, r * 1000000000 + v = u := ⟨_, rfl⟩
    rw [hu]
    refine .ite (fun _ => unnormLoop hb hf0 hf1 n _ _ _ hr hz h hlen) fun _ => ?_
    refine .bind (.idiv (by omega)) ?_
    rintro _ ⟨hd0, rfl⟩
    rw [Int.tdiv_eq_ediv_of_nonneg (by omega)]
    have e1 := Int.ediv_mul_le u hd0
    have e2 := Int.lt_ediv_add_one_mul_self u hf0
    have e3 : 0 ≤ u / f * f := mul_nonneg (Int.ediv_nonneg (by omega) (by omega)) (by omega)
    have e4 : (u / f + 1) * f = u / f * f + f := by ring
    have e5 : 0 ≤ u / f := Int.ediv_nonneg (by omega) (by omega)
    have e6 : u / f < 1000000000 := Int.ediv_lt_of_lt_mul hf0 (by omega)
    refine .bind (.i64 (by omega) (by omega)) ?_
    rintro _ rfl
    refine .bind (.i64 (by omega) (by omega)) ?_
    rintro _ rfl
    refine .ite (fun _ => ?_) fun _ => unnormLoop hb hf0 hf1 n _ _ _ (by omega) hz h hlen
    refine .bind .updAny ?_
    rintro _ ⟨h0, h1, rfl⟩
    rw [wrap32_ok (by omega) (by omega)]
    refine unnormLoop hb hf0 hf1 n _ _ _ (by omega) ?_ (h.set ⟨e5, e6⟩) (by simpa using hlen)
    split_ifs <;> omega

theorem ulz_range (v : Int) : 0 ≤ unitLeadingZeroes v ∧ unitLeadingZeroes v ≤ 9 := by
  unfold unitLeadingZeroes
  split_ifs <;> omega

theorem remFinish {l : List Int} {z f u : Int} (hz : z ≤ 8) (hu : 0 ≤ u ∧ u ≤ 9) :
    NoTrap .overflow (fun _ => True) (Fxd.remFinish m l z f u : Out σ _) := by
  unfold Fxd.remFinish DIGITS_PER_UNIT
  refine .ite (fun h => ?_) fun _ => .pure trivial
  dsimp only
  rw [wrap8_ok (x := z + 1 - u) (by omega) (by omega), wrap8_ok (x := u) (by omega) (by omega)]
  refine .bind (.i8 (by omega) (by omega)) ?_
  rintro _ rfl
  refine .bind (.i8 (by omega) (by omega)) ?_
  rintro _ rfl
  refine .bind (.i8 (by omega) (by omega)) ?_
  rintro _ rfl
  refine .bind .any fun v _ => ?_
  have := ulz_range v
  exact .bind (.i8 (by omega) (by omega)) fun _ _ => .pure trivial

theorem cmpAbsLsu {a b c d : Int} {l r : List Int} : NoTrap .overflow (fun _ => True) (Fxd.cmpAbsLsu a b l c d r : Out σ Ordering) := by
  have h1 : ∀ (l : List Int) (o : Int) (h : Ordering) (n : Nat) (i : Int), NoTrap .overflow (fun _ => True) (cmpExtra l o h n i : Out σ _) := by
    intro l o h n
    induction n with
    | zero => intro i; trivial
    | succ n ih =>
      intro i; unfold Fxd.cmpExtra
      exact .ite (fun _ => .bind .any fun _ _ => .ite (fun _ => trivial) fun _ => ih _) fun _ => trivial
  have h2 : ∀ (l r : List Int) (n : Nat) (i j : Int), NoTrap .overflow (fun _ => True) (cmpCommon l r n i j : Out σ _) := by
    intro l r n
    induction n with
    | zero => intro i j; trivial
    | succ n ih =>
      intro i j
      unfold Fxd.cmpCommon
      exact .bind .any fun _ _ => .bind .any fun _ _ => .ite (fun _ => trivial) fun _ => .ite (fun _ => trivial) fun _ => ih _ _
  have h3 : ∀ (l : List Int) (h : Ordering) (n : Nat), NoTrap .overflow (fun _ => True) (cmpTail l h n : Out σ _) := by
    intro l h n
    induction n with
    | zero => trivial
    | succ n ih => unfold Fxd.cmpTail; exact .bind .any fun _ _ => .ite (fun _ => trivial) fun _ => ih
  unfold Fxd.cmpAbsLsu
  refine .bind (h1 _ _ _ _ _) fun o _ => ?_
  rcases o with o | ⟨_, _⟩
  · trivial
  refine .bind (h1 _ _ _ _ _) fun o _ => ?_
  rcases o with o | ⟨_, _⟩
  · trivial
  refine .bind (h2 _ _ _ _ _) fun o _ => ?_
  rcases o with o | ⟨_, _⟩
  · trivial
  refine .bind (h3 _ _ _) fun o _ => ?_
  cases o with
  | some o => trivial
  | none =>
    refine .bind (h3 _ _ _) fun o _ => ?_
    cases o <;> trivial

theorem setZero_len {d : FixedDecimal} (h : d.lsu.length = 9) : d.setZero.lsu.length = 9 := by
  simpa [FixedDecimal.setZero, FixedDecimal.resetUnits] using h

theorem remAbs {a b : FixedDecimal} (ha : WF a) (hb : WF b) {res : FixedDecimal} (hres : res.lsu.length = 9) :
    NoTrap .overflow (fun _ => True) (Fxd.remAbs m a b res) := by
  have da : DigL a.lsu := ha.units
  have db : DigL b.lsu := hb.units
  have fa := ha.frac_eq
  have fb := hb.frac_eq
  have f1 := fracDigits_le_fu a
  have f2 := fracDigits_le_fu b
  have fl1 := ha.frac_le
  have fl2 := hb.frac_le
  have zl := setZero_len hres
  have zd : DigL res.setZero.lsu := setZero_dig
  unfold Fxd.remAbs
  dsimp only
  generalize res.setZero = r0 at *
  have il1 := ha.intg_le
  have il2 := hb.intg_le
  rw [intgDigits_eq, intgDigits_eq]
  have il1' : (0 : Int) ≤ intgDigits a ∧ (intgDigits a : Int) ≤ 81 := by omega
  have il2' : (0 : Int) ≤ intgDigits b ∧ (intgDigits b : Int) ≤ 81 := by omega
  generalize (intgDigits a : Int) = ai at il1' ⊢
  generalize (intgDigits b : Int) = bi at il2' ⊢
  refine .bind (.getUnits (by omega) (by omega)) fun liu hli => ?_
  refine .bind (.getUnits (by omega) (by omega)) fun lfu hlf => ?_
  refine .bind (.getUnits (by omega) (by omega)) fun riu hri => ?_
  refine .bind (.getUnits (by omega) (by omega)) fun rfu hrf => ?_
  refine .bind (.findNonZero _) fun rnz hr => ?_
  refine .ite (fun _ => .err) fun hr0 => ?_
  refine .bind (.findNonZero _) fun lnz hl => ?_
  refine .ite (fun _ => trivial) fun hl0 => ?_
  obtain ⟨nr, rfl, -, hrb, hrt⟩ := hr.resolve_left (by omega)
  refine .bind .cmpAbsLsu fun o _ => ?_
  cases o with
  | lt =>
    dsimp only
    refine .ite (fun _ => ?_) fun _ => ?_
    · exact .bind (.slice da) fun _ _ => .bind .copyAny fun _ _ => .pure trivial
    · exact .bind (.slice da) fun _ _ => .bind .copyAny fun _ _ => .pure trivial
  | eq => exact .pure trivial
  | gt =>
    dsimp only
    refine .bind (.getUnits (by omega) (by omega)) fun mf hmf => ?_
    have hmf' : 0 ≤ mf ∧ mf ≤ 9 := by omega
    refine .bind (.slice da) fun lseg hls => ?_
    refine .bind .sliceAny fun rseg hrs => ?_
    refine .ite (fun _ => ?_) fun _ => ?_
    · refine .bind (.dig db) fun d hd => ?_
      refine .bind (.copy (.replicate 18) hls) fun buf hbuf => ?_
      refine .bind (P := fun v => 0 ≤ v ∧ v < 1000000000) (.ite (fun _ => .dig da) fun _ => .ok (by omega)) fun r hr => ?_
      refine .bind (.shortRemLoop hbuf.1 hd _ _ _ hr) fun r hr => ?_
      refine .bind (P := fun p => DigL p.1 ∧ p.1.length = 9 ∧ p.2 ≤ 8) ?_ ?_
      · refine .ite (fun _ => ?_) fun _ => .pure ⟨zd, zl, by norm_num⟩
        rw [wrap32_ok (by omega) (by omega)]
        refine .bind .updAny ?_
        rintro _ ⟨h0, h1, rfl⟩
        exact .pure ⟨zd.set hr, by simpa using zl, by dsimp only; omega⟩
      · rintro ⟨l, z⟩ ⟨h1, h2, h3⟩
        dsimp only at h1 h2 h3 ⊢
        refine .bind (.remCopyLoop hbuf.1 _ _ _ h1 h2 h3) ?_
        rintro ⟨l, z⟩ ⟨h1, h3⟩
        exact .remFinish h3 hmf'
    · refine .bind .idx ?_
      rintro _ ⟨-, -, rfl⟩
      refine .bind (.idiv (by unfold UNIT; norm_num)) ?_
      rintro f ⟨-, hf⟩
      unfold UNIT at hf
      rw [Int.toNat_natCast, Int.tdiv_eq_ediv_of_nonneg (by norm_num)] at hf
      obtain ⟨g0, g1, -, -⟩ := norm_facts hrt (db.dig nr).2
      rw [← hf] at g0 g1
      refine .bind (prepare db (.replicate 18) (.replicate 18) hrb hrt hf hls ?_) ?_
      · rw [hrs.2.2.2]; simp
      rintro ⟨buf1, buf2⟩ ⟨h1, h0, h2, h3⟩
      dsimp only at h1 h0 h2 h3 ⊢
      refine .bind .idx ?_
      rintro _ ⟨-, -, rfl⟩
      refine .bind (.dig h2) fun d1 hd1 => ?_
      refine .bind (.slice h2) fun seg2 hs2 => ?_
      have h5 : 500000000 ≤ dg buf2 ((nr : Int) + if lfu < rfu then 0 else lfu - rfu).toNat := by
        refine le_of_le_of_eq h3 (congrArg _ ?_)
        omega
      refine .bind (.longRemLoop hs2 h5 (h2.dig _).2 hd1 _ _ _ h1) fun buf1 h1 => ?_
      have fin : ∀ n, NoTrap .overflow (fun _ => True) (do
          let __discr ← Fxd.unnormLoop m buf1 f n 0 (-1) r0.lsu
          match __discr with
          | (l, rem, rnz) => do
            Fxd.dassert m (rem == 0)
            Fxd.remFinish m l rnz (max a.frac b.frac) mf : Out FixedDecimal FixedDecimal) := by
        intro n
        refine .bind (.unnormLoop h1 g0 (by omega) _ _ _ _ (by omega) (by norm_num) zd zl) ?_
        rintro ⟨l, r, z⟩ ⟨h1, h3⟩
        exact .bind .dassert fun _ _ => .remFinish h3 hmf'
      cases m with
      | debug => exact .bind .any fun _ _ => .bind .dassert fun _ _ => fin _
      | release => exact fin _

/-! ## Rounding -/

theorem carryLoop : ∀ (l : List Int) (c : Int), DigL l → (c = 0 ∨ c = 1) → NoTrap .overflow (fun r => DigL r.1) (Fxd.carryLoop m l c : Out σ _)
  | [], _, h, _ => h
  | u :: l, c, h, hc => by
    unfold Fxd.carryLoop
    have hl : DigL l := fun v hv => h v (by simp [hv])
    refine .bind (.addCarry (h u (by simp)) (by omega) hc) ?_
    rintro ⟨r, c0⟩ ⟨hr, hc0⟩
    dsimp only at hr hc0 ⊢
    refine .ite (fun _ => .pure (DigL.cons hr hl)) fun _ => ?_
    refine .bind (carryLoop l _ hl hc0) ?_
    rintro ⟨us, c⟩ hus
    exact .pure (DigL.cons hr hus)

theorem roundUnit {u w h : Int} (hu : 0 ≤ u ∧ u < 1000000000) (hw : 0 < w ∧ w ≤ 100000000) :
    NoTrap .overflow (fun v => 0 ≤ v ∧ v < 2000000000) (Fxd.roundUnit m u w h : Out σ Int) := by
  unfold Fxd.roundUnit
  dsimp only
  rw [Int.tmod_eq_emod_of_nonneg hu.1]
  have h1 := Int.emod_nonneg u (show w ≠ 0 by omega)
  have h2 := Int.emod_lt_of_pos u hw.1
  have h3 : u % w ≤ u := by
    have e := Int.mul_ediv_add_emod u w
    have := mul_nonneg hw.1.le (Int.ediv_nonneg hu.1 hw.1.le)
    omega
  refine .bind (.i32 (by omega) (by omega)) ?_
  rintro _ rfl
  refine .ite (fun _ => (NoTrap.i32 (by omega) (by omega)).mono ?_) fun _ => .pure (by omega)
  rintro _ rfl
  omega

theorem roundArm {u p : Int} (hu : 0 ≤ u ∧ u < 1000000000) :
    NoTrap .overflow (fun v => 0 ≤ v ∧ v < 2000000000) (Fxd.roundArm m u p : Out σ Int) := by
  unfold Fxd.roundArm
  split <;> first | exact .roundUnit hu (by norm_num) | (intro h; cases h)

theorem roundHalfUp {d : FixedDecimal} (hd : DigL d.lsu) {i f t r c : Int} (hc : c = 0 ∨ c = 1) :
    NoTrap .overflow (fun _ => True) (Fxd.roundHalfUp m d i f t r c : Out σ FixedDecimal) := by
  unfold Fxd.roundHalfUp UNIT
  refine .bind (P := fun _ => True) .any fun ri _ => .bind (P := fun _ => True) .any fun rp _ => ?_
  refine .bind (P := fun p => DigL p.1 ∧ (p.2.2 = 0 ∨ p.2.2 = 1)) ?_ ?_
  · refine .ite (fun _ => ?_) fun _ => .pure ⟨hd, hc⟩
    refine .bind (.dig hd) fun u hu => .bind (.roundArm hu) fun u hu => ?_
    refine .bind (P := fun p => (0 ≤ p.1 ∧ p.1 < 1000000000) ∧ (p.2 = 0 ∨ p.2 = 1)) ?_ ?_
    · refine .ite (fun _ => .bind (.i32 (by omega) (by omega)) ?_) fun _ => .pure ⟨by dsimp only; omega, hc⟩
      rintro _ rfl
      exact .pure ⟨by dsimp only; omega, Or.inr rfl⟩
    · rintro ⟨u, c⟩ ⟨hu, hc⟩
      exact .bind (.upd hd hu) fun l hl => .pure ⟨hl, hc⟩
  · rintro ⟨l, j, c⟩ ⟨hl, hc⟩
    dsimp only at hl hc ⊢
    refine .bind (P := fun _ => True) ?_ ?_
    · refine .ite (fun _ => ?_) fun _ => .pure trivial
      refine .bind (.slice hl) fun s hs => .bind (.carryLoop _ _ hs hc) ?_
      rintro ⟨s, c⟩ _
      refine .bind .copyAny fun l _ => .ite (fun _ => ?_) fun _ => .pure trivial
      exact .bind .updAny fun _ _ => .pure trivial
    · rintro ⟨l, i⟩ _
      refine .bind (P := fun _ => True) (.ite (fun _ => trivial) fun _ => index) fun _ _ => .pure trivial

/-- Both rounding functions, for every precision from the smallest number that can be negated and incremented up to 119. -/
theorem round {d : FixedDecimal} (hd : WF d) {k : Int} (h0 : -9223372036854775806 ≤ k) (h1 : k < 120) :
    NoTrap .overflow (fun _ => True) (d.round m k : Out σ FixedDecimal) := by
  have dd : DigL d.lsu := hd.units
  have fe := hd.frac_eq
  have f1 := fracDigits_le_fu d
  have fl := hd.frac_le
  have fd := hd.fits
  have fu1 : 9 * (fu d : Int) ≤ fracDigits d + 8 := by unfold fu unitsFor; omega
  unfold FixedDecimal.round
  dsimp only
  refine .bind (.intgUnits hd) ?_; rintro _ rfl
  refine .bind (.fracUnits hd) ?_; rintro _ rfl
  refine .ite (fun h => ?_) fun h => .ite (fun hk => ?_) fun hk => ?_
  · rw [wrap8_ok (by omega) (by omega)]
    refine .bind (.getUnits (by omega) (by omega)) fun r hr => .ite (fun _ => .pure trivial) fun _ => ?_
    exact .bind (.usz (by omega) (by omega)) fun _ _ => .bind (.copyWithin dd) fun _ _ => .pure trivial
  · refine .bind (.isz (by omega) (by omega)) ?_
    rintro _ rfl
    refine .bind (.isz (by omega) (by omega)) ?_
    rintro _ rfl
    refine .ite (fun _ => .pure trivial) fun _ => ?_
    exact .bind (.copyWithin dd) fun l hl => .bind (.zeroRange hl) fun l hl => .roundHalfUp hl (Or.inl rfl)
  · rw [wrap8_ok (by omega) (by omega)]
    refine .bind (.i8 (by omega) (by omega)) ?_
    rintro _ rfl
    refine .bind (.getUnits (by omega) (by omega)) fun r hr => .ite (fun _ => ?_) fun _ => ?_
    · refine .bind (P := fun _ => True) .any fun p _ => ?_
      refine .bind (P := fun q => q.1 = 0 ∨ q.1 = 1) ?_ ?_
      · refine .ite (fun _ => ?_) fun _ => .pure (Or.inl rfl)
        refine .bind .any fun v _ => .bind (.usz (by omega) (by omega)) fun _ _ => .pure ?_
        dsimp only
        split_ifs <;> simp
      · rintro ⟨c, r⟩ hc
        exact .bind (.copyWithin dd) fun l hl => .bind (.zeroRange hl) fun l hl => .roundHalfUp hl hc
    · refine .bind .dassert fun _ _ => .bind (P := fun _ => True) .any fun p _ => .ite (fun _ => ?_) fun _ => .roundHalfUp dd (Or.inl rfl)
      refine .bind .any fun v _ => .bind (.copyWithin dd) fun l hl => .bind (.usz (by omega) (by omega)) fun t _ => ?_
      refine .bind (.upd hl (by omega)) fun l hl => .bind (.usz (by omega) (by omega)) fun g _ => .roundHalfUp hl ?_
      split_ifs <;> simp

theorem roundTo {d res : FixedDecimal} (hd : WF d) {k : Int} (h0 : -9223372036854775806 ≤ k) (h1 : k < 120) :
    NoTrap .overflow (fun _ => True) (d.roundTo m res k : Out σ FixedDecimal) := by
  have dd : DigL d.lsu := hd.units
  have fe := hd.frac_eq
  have f1 := fracDigits_le_fu d
  have fl := hd.frac_le
  have fd := hd.fits
  have fu1 : 9 * (fu d : Int) ≤ fracDigits d + 8 := by unfold fu unitsFor; omega
  unfold FixedDecimal.roundTo
  dsimp only
  have zd : DigL res.setZero.lsu := setZero_dig
  refine .bind (.intgUnits hd) ?_; rintro _ rfl
  refine .bind (.fracUnits hd) ?_; rintro _ rfl
  refine .ite (fun h => ?_) fun h => .ite (fun hk => ?_) fun hk => ?_
  · rw [wrap8_ok (by omega) (by omega)]
    refine .bind (.getUnits (by omega) (by omega)) fun r hr => .ite (fun _ => .pure trivial) fun _ => ?_
    exact .bind (.usz (by omega) (by omega)) fun _ _ => .bind (.slice dd) fun _ _ => .bind .copyAny fun _ _ => .pure trivial
  · refine .bind (.isz (by omega) (by omega)) ?_
    rintro _ rfl
    refine .bind (.isz (by omega) (by omega)) ?_
    rintro _ rfl
    refine .ite (fun _ => .pure trivial) fun _ => ?_
    exact .bind (.slice dd) fun s hs => .bind (.copy zd hs) fun l hl => .roundHalfUp hl.1 (Or.inl rfl)
  · rw [wrap8_ok (by omega) (by omega)]
    refine .bind (.i8 (by omega) (by omega)) ?_
    rintro _ rfl
    refine .bind (.getUnits (by omega) (by omega)) fun r hr => .ite (fun _ => ?_) fun _ => ?_
    · refine .bind (P := fun _ => True) .any fun p _ => ?_
      refine .bind (P := fun q => q.1 = 0 ∨ q.1 = 1) ?_ ?_
      · refine .ite (fun _ => ?_) fun _ => .pure (Or.inl rfl)
        refine .bind .any fun v _ => .bind (.usz (by omega) (by omega)) fun _ _ => .pure ?_
        dsimp only
        split_ifs <;> simp
      · rintro ⟨c, r⟩ hc
        exact .bind (.slice dd) fun s hs => .bind (.copy zd hs) fun l hl => .roundHalfUp hl.1 hc
    · refine .bind .dassert fun _ _ => .bind (P := fun _ => True) .any fun p _ => .ite (fun _ => ?_) fun _ => .roundHalfUp dd (Or.inl rfl)
      refine .bind .any fun v _ => .bind (.usz (by omega) (by omega)) fun t _ => ?_
      refine .bind (.slice dd) fun s hs => .bind (.copy zd hs) fun l hl => .bind (.usz (by omega) (by omega)) fun g _ => .roundHalfUp hl.1 ?_
      split_ifs <;> simp

end NoTrap
end Fxd
