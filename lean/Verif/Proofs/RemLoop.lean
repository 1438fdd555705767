import Verif.Proofs.DivLongRes
/-!
# The loops of the remainder
-/

namespace Fxd
open Spec

variable {σ : Type} {m : Mode}

/-! ## Short remainder -/

theorem shortRemLoop_spec {l : List Int} (hd : Dig (dg l)) {d : Int} (hd1 : d < 1000000000) :
    ∀ (n s : Nat) (rem : Int), s + n ≤ l.length → 0 ≤ rem → rem < d →
      ∃ r Q, (shortRemLoop m l d n ((s : Int) + n - 1) rem : Out σ _) = .ok r ∧ 0 ≤ r ∧ r < d ∧
        rem * 1000000000 ^ n + psum (fun t => dg l (s + t)) n = Q * d + r
  | 0, s, rem, _, h0, h1 => ⟨rem, 0, rfl, h0, h1, by simp⟩
  | n + 1, s, rem, hi, h0, h1 => by
    have hv := hd (s + n)
    obtain ⟨q0, q1, r0, r1⟩ := digit_div h0 h1 hv.1 hv.2
    unfold shortRemLoop UNIT
    rw [show ((s : Int) + ((n + 1 : Nat) : Int) - 1) = ((s + n : Nat) : Int) by push_cast; ring]
    rw [i64_ok (by omega) (by omega), ok_bind, idx_nat (by omega), ok_bind, i64_ok (by omega) (by omega), ok_bind,
      idiv_ok (by omega) (by omega), ok_bind]
    obtain ⟨u, hu⟩ : ∃ u, rem * 1000000000 + dg l (s + n) = u := ⟨_, rfl⟩
    rw [hu] at q0 q1 r0 r1 ⊢
    obtain ⟨q, hq⟩ : ∃ q, u / d = q := ⟨_, rfl⟩
    rw [hq] at q0 q1 r0 r1 ⊢
    rw [i64_ok (by omega) (by omega), ok_bind, i64_ok (by omega) (by omega), ok_bind]
    obtain ⟨r, Q, e, hr0, hr1, heq⟩ := shortRemLoop_spec hd hd1 n s (u - q * d) (by omega) r0 r1
    refine ⟨r, Q + q * 1000000000 ^ n, ?_, hr0, hr1, ?_⟩
    · rw [← e]; congr 1
    · rw [psum_succ]
      have : rem * 1000000000 ^ (n + 1) + (psum (fun t => dg l (s + t)) n + dg l (s + n) * 1000000000 ^ n) =
        (rem * 1000000000 + dg l (s + n)) * 1000000000 ^ n + psum (fun t => dg l (s + t)) n := by ring
      rw [this, hu]
      have : (u - q * d) * 1000000000 ^ n = u * 1000000000 ^ n - q * 1000000000 ^ n * d := by ring
      rw [this] at heq
      linarith

/-- `rnz` is the leading non-zero position of `l` below `n`, or `-1`. -/
def Lead (l : List Int) (n : Nat) (rnz : Int) : Prop :=
  (rnz = -1 ∧ ∀ p < n, dg l p = 0) ∨
  ∃ k : Nat, rnz = k ∧ k < n ∧ 0 < dg l k ∧ ∀ p, k < p → p < n → dg l p = 0

theorem remCopyLoop_spec {buf : List Int} (hd : Dig (dg buf)) : ∀ (n : Nat) (res : List Int) (rnz : Int),
    n ≤ buf.length → n ≤ res.length →
    ∃ l r, (remCopyLoop buf n res rnz : Out σ _) = .ok (l, r) ∧ l.length = res.length ∧
      (∀ p, dg l p = if p < n then dg buf p else dg res p) ∧ (0 ≤ rnz → r = rnz) ∧ (rnz = -1 → Lead l n r)
  | 0, res, rnz, _, _ => ⟨res, rnz, rfl, rfl, fun p => by rw [if_neg (by omega)], fun _ => rfl,
      fun h => Or.inl ⟨h, fun p hp => by omega⟩⟩
  | n + 1, res, rnz, hb, hr => by
    unfold remCopyLoop
    rw [idx_nat (by omega), ok_bind, upd_nat (by omega), ok_bind]
    obtain ⟨l, r, e, hl, hp, h0, h1⟩ := remCopyLoop_spec hd n (res.set n (dg buf n))
      (if dg buf n > 0 ∧ rnz < 0 then (n : Int) else rnz) (by omega) (by rw [List.length_set]; omega)
    have hln : dg l n = dg buf n := by rw [hp n, if_neg (by omega), dg_set_self (by omega)]
    refine ⟨l, r, e, by rw [hl, List.length_set], fun p => ?_, fun hz => ?_, fun hz => ?_⟩
    · rw [hp p]
      by_cases h2 : p < n
      · rw [if_pos h2, if_pos (by omega)]
      · rw [if_neg h2, dg_set (by omega)]
        by_cases h3 : p = n
        · rw [if_pos h3, if_pos (by omega), h3]
        · rw [if_neg h3, if_neg (by omega)]
    · rw [if_neg (by omega)] at h0; exact h0 hz
    · by_cases hv : dg buf n > 0
      · rw [if_pos ⟨hv, by omega⟩] at h0
        exact Or.inr ⟨n, h0 (by omega), by omega, by rw [hln]; exact hv, fun p hp1 hp2 => by omega⟩
      · have hv0 : dg l n = 0 := by rw [hln]; have := (hd n).1; omega
        rw [if_neg (by omega)] at h1
        rcases h1 hz with ⟨hr, hh⟩ | ⟨k, hr, hk, hpos, hh⟩
        · refine Or.inl ⟨hr, fun p hp1 => ?_⟩
          by_cases h3 : p = n
          · rw [h3]; exact hv0
          · exact hh p (by omega)
        · refine Or.inr ⟨k, hr, by omega, hpos, fun p hp1 hp2 => ?_⟩
          by_cases h3 : p = n
          · rw [h3]; exact hv0
          · exact hh p hp1 (by omega)

/-! ## Undoing the normalisation -/

theorem unnormLoop_skip {buf : List Int} {f : Int} {k : Nat} {rnz : Int} {res : List Int} : ∀ j : Nat, k + j ≤ buf.length →
    (∀ p, k ≤ p → p < k + j → dg buf p = 0) →
    (unnormLoop m buf f (k + j) 0 rnz res : Out σ _) = unnormLoop m buf f k 0 rnz res
  | 0, _, _ => rfl
  | j + 1, hl, hz => by
    rw [show k + (j + 1) = (k + j) + 1 by ring]
    rw [unnormLoop]
    rw [i64_ok (by norm_num) (by norm_num), ok_bind, idx_nat (by omega), ok_bind, hz (k + j) (by omega) (by omega),
      i64_ok (by norm_num) (by norm_num), ok_bind, if_pos (by norm_num)]
    exact unnormLoop_skip j (by omega) (fun p h1 h2 => hz p h1 (by omega))

theorem unnormLoop_spec {buf : List Int} (hd : Dig (dg buf)) {f : Int} (f0 : 0 < f) (f1 : f < 1000000000) :
    ∀ (n : Nat) (rem rnz : Int) (res : List Int), n ≤ buf.length → n ≤ res.length → (∀ p < n, dg res p = 0) →
      0 ≤ rem → rem < f →
      ∃ l rem' r, (unnormLoop m buf f n rem rnz res : Out σ _) = .ok (l, rem', r) ∧ l.length = res.length ∧
        (∀ p, n ≤ p → dg l p = dg res p) ∧ (∀ p < n, 0 ≤ dg l p ∧ dg l p < 1000000000) ∧ 0 ≤ rem' ∧ rem' < f ∧
        rem * 1000000000 ^ n + psum (dg buf) n = psum (dg l) n * f + rem' ∧
        (0 ≤ rnz → r = rnz) ∧ (rnz = -1 → Lead l n r)
  | 0, rem, rnz, res, _, _, _, h0, h1 => ⟨res, rem, rnz, rfl, rfl, fun _ _ => rfl, fun p hp => absurd hp (by omega), h0, h1,
      by simp, fun _ => rfl, fun h => Or.inl ⟨h, fun p hp => by omega⟩⟩
  | n + 1, rem, rnz, res, hb, hr, hz, h0, h1 => by
    have hv := hd n
    obtain ⟨q0, q1, r0, r1⟩ := digit_div h0 h1 hv.1 hv.2
    unfold unnormLoop UNIT
    rw [i64_ok (by omega) (by omega), ok_bind, idx_nat (by omega), ok_bind, i64_ok (by omega) (by omega), ok_bind]
    obtain ⟨u, hu⟩ : ∃ u, rem * 1000000000 + dg buf n = u := ⟨_, rfl⟩
    rw [hu] at q0 q1 r0 r1 ⊢
    obtain ⟨q, hq⟩ : ∃ q, u / f = q := ⟨_, rfl⟩
    rw [hq] at q0 q1 r0 r1
    -- a single equation for the three branches
    have hstep : ∃ rnz', (if u = 0 then unnormLoop m buf f n rem rnz res
        else do
          let q ← idiv u f
          let w ← i64 m (q * f)
          let rem ← i64 m (u - w)
          if q > 0 then do
            let res ← upd res n (wrap 32 q)
            unnormLoop m buf f n rem (if rnz < 0 then (n : Int) else rnz) res
          else unnormLoop m buf f n rem rnz res : Out σ _) =
        unnormLoop m buf f n (u - q * f) rnz' (res.set n q) ∧
        ((0 ≤ rnz ∧ rnz' = rnz) ∨ (rnz < 0 ∧ 0 < q ∧ rnz' = n) ∨ (rnz < 0 ∧ q = 0 ∧ rnz' = rnz)) := by
      have hset : q = 0 → res.set n q = res := by
        intro hq0
        apply list_ext_dg (by rw [List.length_set])
        intro i hi
        rw [List.length_set] at hi
        rw [dg_set (by omega)]
        split_ifs with h
        · rw [h, hq0, hz n (by omega)]
        · rfl
      by_cases hu0 : u = 0
      · have hq0 : q = 0 := by rw [← hq, hu0]; simp
        have hrem : rem = 0 := by omega
        refine ⟨rnz, ?_, by omega⟩
        rw [if_pos hu0, hset hq0, hu0, hq0, hrem]; simp
      · rw [if_neg hu0, idiv_ok (by omega) f0, ok_bind, hq, i64_ok (by omega) (by omega), ok_bind,
          i64_ok (by omega) (by omega), ok_bind]
        by_cases hqp : q > 0
        · refine ⟨if rnz < 0 then (n : Int) else rnz, ?_, ?_⟩
          · rw [if_pos hqp, wrap32_ok (by omega) (by omega), upd_nat (by omega), ok_bind]
          · by_cases hn : rnz < 0
            · rw [if_pos hn]; omega
            · rw [if_neg hn]; omega
        · refine ⟨rnz, ?_, by omega⟩
          rw [if_neg hqp, hset (by omega)]
    obtain ⟨rnz', hs, hrn⟩ := hstep
    rw [hs]
    obtain ⟨l, rem', r, e, hl, hhi, hlo, hr0, hr1, heq, hp0, hp1⟩ := unnormLoop_spec hd f0 f1 n (u - q * f) rnz' (res.set n q)
      (by omega) (by rw [List.length_set]; omega) (fun p hp => by rw [dg_set_ne (by omega)]; exact hz p (by omega)) r0 r1
    have hln : dg l n = q := by rw [hhi n (le_refl _), dg_set_self (by omega)]
    refine ⟨l, rem', r, e, by rw [hl, List.length_set], fun p hp => ?_, fun p hp => ?_, hr0, hr1, ?_, fun hz => ?_, fun hz => ?_⟩
    · rw [hhi p (by omega), dg_set_ne (by omega)]
    · by_cases h3 : p = n
      · rw [h3, hln]; exact ⟨q0, q1⟩
      · exact hlo p (by omega)
    · rw [psum_succ (dg buf), psum_succ (dg l), hln]
      have : rem * 1000000000 ^ (n + 1) + (psum (dg buf) n + dg buf n * 1000000000 ^ n) =
        (rem * 1000000000 + dg buf n) * 1000000000 ^ n + psum (dg buf) n := by ring
      rw [this, hu]
      have : (u - q * f) * 1000000000 ^ n = u * 1000000000 ^ n - q * 1000000000 ^ n * f := by ring
      rw [this] at heq
      linarith
    · rcases hrn with ⟨_, h⟩ | ⟨h, _, _⟩ | ⟨h, _, _⟩
      · rw [h] at hp0; exact hp0 hz
      · omega
      · omega
    · rcases hrn with ⟨h, _⟩ | ⟨_, hq, h⟩ | ⟨_, hq, h⟩
      · omega
      · exact Or.inr ⟨n, by rw [← h]; exact hp0 (by omega), by omega, by rw [hln]; exact hq, fun p hp1 hp2 => by omega⟩
      · rcases hp1 (by omega) with ⟨hr, hh⟩ | ⟨k, hr, hk, hpos, hh⟩
        · refine Or.inl ⟨hr, fun p hp1 => ?_⟩
          by_cases h3 : p = n
          · rw [h3, hln]; exact hq
          · exact hh p (by omega)
        · refine Or.inr ⟨k, hr, by omega, hpos, fun p hp1 hp2 => ?_⟩
          by_cases h3 : p = n
          · rw [h3, hln]; exact hq
          · exact hh p hp1 (by omega)

/-! ## The end -/

theorem remFinish_spec {l : List Int} (hl : l.length = 9) (hd : DigL l) {f : Nat} (hf : f ≤ 81) {rnz : Int}
    (hL : Lead l 9 rnz) :
    ∃ r, (remFinish m l rnz (f : Int) (unitsFor f : Nat) : Out σ _) = .ok r ∧ r.lsu = l ∧ WF r ∧ neg r = false ∧
      fracDigits r = f ∧ mant r = psum (dg l) 9 ∧ mant r < 10 ^ (intgDigits r + 9 * fu r) ∧
      (intgDigits r = 0 ∨ 10 ^ (intgDigits r - 1 + 9 * fu r) ≤ mant r) := by
  have hF : unitsFor f ≤ 9 := by unfold unitsFor; omega
  have hU9 : unitsFor f * 9 ≤ 81 := by omega
  have mk : ∀ n : Nat, n ≤ 81 → ∀ d : FixedDecimal, d = ⟨BitVec.ofInt 8 ((n : Nat) : Int), (f : Int), l⟩ →
      unitsFor n + unitsFor f ≤ 9 → (∀ p, unitsFor n + unitsFor f ≤ p → dg l p = 0) →
      d.lsu = l ∧ WF d ∧ neg d = false ∧ fracDigits d = f ∧ mant d = psum (dg l) 9 ∧ intgDigits d = n ∧
        fu d = unitsFor f := by
    rintro n hn d rfl hfit hz
    have h1 : intgDigits (⟨BitVec.ofInt 8 ((n : Nat) : Int), (f : Int), l⟩ : FixedDecimal) = n := intgDigits_mk (by omega)
    have h3 : fracDigits (⟨BitVec.ofInt 8 ((n : Nat) : Int), (f : Int), l⟩ : FixedDecimal) = f := by simp [fracDigits]
    have h2 : iu (⟨BitVec.ofInt 8 ((n : Nat) : Int), (f : Int), l⟩ : FixedDecimal) = unitsFor n := by unfold iu; rw [h1]
    have h4 : fu (⟨BitVec.ofInt 8 ((n : Nat) : Int), (f : Int), l⟩ : FixedDecimal) = unitsFor f := by unfold fu; rw [h3]
    have hw : WF (⟨BitVec.ofInt 8 ((n : Nat) : Int), (f : Int), l⟩ : FixedDecimal) :=
      ⟨hl, hd, by simp, by rw [h2, h4]; exact hfit, by rw [h2, h4]; exact high_of_dg hz⟩
    exact ⟨rfl, hw, neg_mk (by omega), h3, hw.mant_eq9, h1, h4⟩
  have hz9 : ∀ p, 9 ≤ p → dg l p = 0 := fun p hp => dg_out (by omega)
  unfold remFinish
  by_cases hge : rnz ≥ ((unitsFor f : Nat) : Int)
  · rw [if_pos hge]
    rcases hL with ⟨h, _⟩ | ⟨k, rfl, hk, hpos, hh⟩
    · omega
    · have hv := hd.dig k
      obtain ⟨z, ez, hz8, hz1, hz2⟩ := ulz_nat hpos hv.2
      dsimp only
      unfold DIGITS_PER_UNIT
      rw [wrap8_ok (by omega) (by omega), wrap8_ok (by omega) (by omega), i8_ok (by omega) (by omega), ok_bind,
        i8_ok (by omega) (by omega), ok_bind, i8_ok (by omega) (by omega), ok_bind, idx_ok (by omega) (by omega), ok_bind,
        show ((k : Int) + 1 - (unitsFor f : Nat) + (unitsFor f : Nat) - 1).toNat = k by omega, ez,
        i8_ok (by omega) (by omega), ok_bind]
      have hn : (((k : Int) + 1 - (unitsFor f : Nat)) * 9 - (z : Int)) = ((9 * (k + 1 - unitsFor f) - z : Nat) : Int) := by
        omega
      have hu : unitsFor (9 * (k + 1 - unitsFor f) - z) = k + 1 - unitsFor f := by
        have : 1 ≤ k + 1 - unitsFor f := by omega
        generalize k + 1 - unitsFor f = t at *
        unfold unitsFor; omega
      obtain ⟨a1, a2, a3, a4, a5, a6, a7⟩ := mk (9 * (k + 1 - unitsFor f) - z) (by omega)
        ⟨BitVec.ofInt 8 (((k : Int) + 1 - (unitsFor f : Nat)) * 9 - (z : Int)), (f : Int), l⟩ (by rw [hn]) (by rw [hu]; omega)
        (fun p hp => by
          rw [hu] at hp
          by_cases h9 : p < 9
          · exact hh p (by omega) h9
          · exact hz9 p (by omega))
      refine ⟨_, rfl, a1, a2, a3, a4, a5, ?_⟩
      rw [a5, a6, a7]
      have hk0 := psum_nonneg hd.dig k
      have e9 : psum (dg l) 9 = psum (dg l) (k + 1) := psum_extend (by omega) fun p h1 h2 => hh p (by omega) h2
      rw [e9, psum_succ]
      have h3 := psum_lt hd.dig k
      have h4 : 9 * (k + 1 - unitsFor f) - z + 9 * unitsFor f = 9 - z + 9 * k := by omega
      have h5 : 9 * (k + 1 - unitsFor f) - z - 1 + 9 * unitsFor f = 8 - z + 9 * k := by omega
      rw [h4, h5, pow_add, pow_add, ← pow9]
      have hP : (0 : Int) < 1000000000 ^ k := by positivity
      exact ⟨by nlinarith, Or.inr (by nlinarith)⟩
  · rw [if_neg hge]
    have hzero : ∀ p, unitsFor f ≤ p → dg l p = 0 := by
      intro p hp
      by_cases h9 : p < 9
      · rcases hL with ⟨_, hh⟩ | ⟨k, rfl, hk, hpos, hh⟩
        · exact hh p h9
        · exact hh p (by omega) h9
      · exact hz9 p (by omega)
    obtain ⟨a1, a2, a3, a4, a5, a6, a7⟩ := mk 0 (by omega) ⟨0#8, (f : Int), l⟩ rfl (by simp [unitsFor]; omega)
      (fun p hp => hzero p (by simp [unitsFor] at hp ⊢; omega))
    refine ⟨_, rfl, a1, a2, a3, a4, a5, ?_⟩
    rw [a5, a6, a7, zero_add, ← pow9, psum_extend hF fun p h1 _ => hzero p h1]
    exact ⟨psum_lt hd.dig _, Or.inl rfl⟩

end Fxd
