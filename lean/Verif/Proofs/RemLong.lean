import Verif.Proofs.RemLoop
import Verif.Proofs.RunLemmas
/-!
# The long remainder
-/

namespace Fxd
open Spec

variable {σ : Type} {m : Mode}

/-- The multiply-and-subtract on slices is the one on the buffer. -/
theorem mulSubSeg_eq {q : Int} {buf2 : List Int} : ∀ (n k ms : Nat) (buf1 : List Int) (c b : Int), k + n ≤ buf2.length →
    ms + n ≤ buf1.length →
    (mulSub m q buf2 n (k : Int) (ms : Int) buf1 c b : Out σ _) = (do
      let (s, c', b') ← mulSubSeg m q ((buf1.drop ms).take n) ((buf2.drop k).take n) c b
      .ok (buf1.take ms ++ s ++ buf1.drop (ms + n), c', b'))
  | 0, k, ms, buf1, c, b, _, _ => by
    simp [mulSub, mulSubSeg]
  | n + 1, k, ms, buf1, c, b, hk, hm => by
    have h1 : (buf1.drop ms).take (n + 1) = dg buf1 ms :: (buf1.drop (ms + 1)).take n := by
      rw [List.drop_eq_getElem_cons (by omega), List.take_succ_cons]
      congr 1
      simp [dg, show ms < buf1.length by omega]
    have h2 : (buf2.drop k).take (n + 1) = dg buf2 k :: (buf2.drop (k + 1)).take n := by
      rw [List.drop_eq_getElem_cons (by omega), List.take_succ_cons]
      congr 1
      simp [dg, show k < buf2.length by omega]
    rw [h1, h2, mulSub, mulSubSeg, idx_nat (by omega), ok_bind]
    simp only [bind_assoc']
    refine bindF fun p => bindF fun mv => ?_
    refine bindF fun w => bindF fun mv0 => ?_
    rw [if_neg (by omega), idx_nat (by omega), ok_bind]
    refine bindF fun x => ?_
    obtain ⟨s, b0⟩ := x
    dsimp only
    rw [upd_nat (by omega), ok_bind]
    have hk' : k + 1 + n ≤ buf2.length := by omega
    have hm' : ms + 1 + n ≤ (buf1.set ms s).length := by rw [List.length_set]; omega
    refine Eq.trans (mulSubSeg_eq n (k + 1) (ms + 1) (buf1.set ms s) (mv.tdiv UNIT) b0 hk' hm') ?_
    have e1 : (buf1.set ms s).drop (ms + 1) = buf1.drop (ms + 1) := List.drop_set_of_lt (by omega)
    have e2 : (buf1.set ms s).drop (ms + 1 + n) = buf1.drop (ms + (n + 1)) := by
      rw [List.drop_set_of_lt (by omega)]; congr 1; ring
    have e3 : (buf1.set ms s).take (ms + 1) = buf1.take ms ++ [s] := by
      apply list_ext_dg
      · simp; omega
      · intro i hi
        simp only [List.length_take, List.length_set] at hi
        rw [dg_take, if_pos (by omega), dg_set (by omega), dg_append, dg_take]
        simp only [List.length_take]
        by_cases hi2 : i = ms
        · rw [if_pos hi2, if_neg (by omega), show i - min ms buf1.length = 0 by omega]; rfl
        · rw [if_neg hi2, if_pos (by omega), if_pos (by omega)]
    rw [e1, e2, e3]
    refine bindF fun y => ?_
    obtain ⟨s1, c1, b1⟩ := y
    simp

theorem negSeg_spec : ∀ (l : List Int) (b : Int), DigL l → (b = 0 ∨ b = -1) →
    ∃ l' b', (negSeg m l b : Out σ _) = .ok l' ∧ l'.length = l.length ∧ DigL l' ∧ (b' = 0 ∨ b' = -1) ∧
      b - unitsVal l = unitsVal l' + 1000000000 ^ l.length * b'
  | [], b, _, hb => ⟨[], b, rfl, rfl, fun u hu => by simp at hu, hb, by simp [unitsVal]⟩
  | v :: vs, b, hl, hb => by
    obtain ⟨s, b1, es, hs, hb1, heq⟩ := subWithBorrow_spec (σ := σ) m (show (0 : Int) ≤ 0 ∧ (0 : Int) < 1000000000 by norm_num)
      (hl v (by simp)) hb
    obtain ⟨l', b', e, hlen, hd, hb', h⟩ := negSeg_spec vs b1 (fun u hu => hl u (List.mem_cons_of_mem _ hu)) hb1
    unfold negSeg
    rw [es, ok_bind]
    dsimp only
    rw [e, ok_bind]
    refine ⟨_, b', rfl, by simp [hlen], ?_, hb', ?_⟩
    · intro x hx
      rcases List.mem_cons.mp hx with rfl | hx
      · exact hs
      · exact hd x hx
    · simp only [unitsVal, List.length_cons, pow_succ]
      have : 1000000000 ^ vs.length * 1000000000 * b' = 1000000000 * (1000000000 ^ vs.length * b') := by ring
      rw [this]
      linarith
theorem win2_psum {buf1 : List Int} {nr n : Nat} :
    psum (dg buf1) (n + (nr + 2)) = psum (dg buf1) n + 1000000000 ^ n * win2 buf1 nr ((n : Int) + nr) := by
  rw [psum_add_len]
  unfold win2
  congr 2
  refine psum_congr fun t _ => ?_
  rw [show ((n : Int) + nr - nr + (t : Int)) = ((n + t : Nat) : Int) by push_cast; ring, ext_nat]

/-- A window of a buffer put back. -/
theorem seg_dg {buf1 s : List Int} {n k : Nat} (hs : s.length = k) (h : n + k ≤ buf1.length) (p : Nat) :
    dg (buf1.take n ++ s ++ buf1.drop (n + k)) p = if n ≤ p ∧ p < n + k then dg s (p - n) else dg buf1 p := by
  rw [dg_append, dg_append, dg_take, dg_drop]
  simp only [List.length_append, List.length_take, hs]
  rw [Nat.min_eq_left (by omega)]
  by_cases h1 : p < n + k
  · rw [if_pos h1]
    by_cases h2 : p < n
    · rw [if_pos h2, if_pos h2, if_neg (by omega)]
    · rw [if_neg h2, if_pos (by omega)]
  · rw [if_neg h1, if_neg (by omega)]; congr 1; omega

/-- What the loop of the long remainder leaves in the buffer. -/
structure RemLoopRes (buf1 buf2 l : List Int) (nr n : Nat) : Prop where
  len : l.length = buf1.length
  dig : Dig (dg l)
  high : ∀ p, n + nr + 1 ≤ p → dg l p = dg buf1 p
  zero : ∀ p, nr + 1 ≤ p → p < n + nr + 1 → dg l p = 0
  lt : psum (dg l) (nr + 1) < psum (dg buf2) (nr + 1)

theorem longRemLoop_spec {buf2 : List Int} (hb2 : Dig (dg buf2)) {nr : Nat} (hnr : 1 ≤ nr) (hlen2 : buf2.length = nr + 1)
    (hd0 : 500000000 ≤ dg buf2 nr) {R P : Int} (hR : R = psum (dg buf2) (nr + 1)) (hP : P = 1000000000 ^ (nr - 1)) :
    ∀ (n : Nat) (i : Int) (buf1 : List Int) (V : Int), i = (n : Int) + nr - 1 → n + nr + 1 ≤ buf1.length →
      Dig (dg buf1) → psum (dg buf1) (n + (nr + 1)) = V → V < R * 1000000000 ^ n →
      (m = .debug ∧ (∃ W ∈ remWins R P n V, FirstGuessWide R P W) ∧
        (longRemLoop m buf2 (dg buf2 nr) (dg buf2 (nr - 1)) n i buf1 : Out σ _) = .panic .assert) ∨
      ¬ (m = .debug ∧ ∃ W ∈ remWins R P n V, FirstGuessWide R P W) ∧
      ∃ l, (longRemLoop m buf2 (dg buf2 nr) (dg buf2 (nr - 1)) n i buf1 : Out σ _) = .ok l ∧
        RemLoopRes buf1 buf2 l nr n ∧ psum (dg l) (nr + 1) = remRun R P n V
  | 0, i, buf1, V, _, _, hd, hVe, hV => by
    rw [pow_zero, mul_one] at hV
    rw [zero_add] at hVe
    refine Or.inr ⟨by simp [remWins], buf1, rfl, ⟨rfl, hd, fun _ _ => rfl, fun p h1 h2 => by omega, ?_⟩, ?_⟩
    · rw [hVe, ← hR]; exact hV
    · rw [hVe]; rfl
  | n + 1, i, buf1, V, hi, hlen, hd, hVe, hV => by
    obtain rfl : i = (n : Int) + nr := by push_cast at hi; omega
    have hBn : (0 : Int) < 1000000000 ^ n := by positivity
    have hVW := win2_psum (buf1 := buf1) (nr := nr) (n := n)
    have hl0 := psum_nonneg hd n
    have hl1 := psum_lt hd n
    rw [show n + 1 + (nr + 1) = n + (nr + 2) by ring, hVW] at hVe
    rw [← hVe, pow_succ, hR] at hV
    have hVd : V / 1000000000 ^ n = win2 buf1 nr ((n : Int) + nr) := by
      rw [← hVe, Int.add_mul_ediv_left _ _ hBn.ne', Int.ediv_eq_zero_of_lt hl0 hl1, zero_add]
    have hVm : V % 1000000000 ^ n = psum (dg buf1) n := by
      rw [← hVe, Int.add_mul_emod_self_left, Int.emod_eq_of_lt hl0 hl1]
    have hW : win2 buf1 nr ((n : Int) + nr) < psum (dg buf2) (nr + 1) * 1000000000 := by
      have h1 : 1000000000 ^ n * win2 buf1 nr ((n : Int) + nr) <
        1000000000 ^ n * (psum (dg buf2) (nr + 1) * 1000000000) := by
        have : 1000000000 ^ n * (psum (dg buf2) (nr + 1) * 1000000000) =
          psum (dg buf2) (nr + 1) * (1000000000 ^ n * 1000000000) := by ring
        rw [this]; omega
      exact lt_of_mul_lt_mul_left h1 hBn.le
    obtain ⟨q, hg, hq0, hq1, hWq, hcls, buf1', c', b', D, hms', hl1', hD, hp, hc0, hc1, hb', hs1, hs2, hsum, hqR, hqE⟩ :=
      longStepX (σ := σ) (m := m) hd hb2 hnr (by omega) hd0 (show (0 : Int) ≤ (n : Int) + nr by omega) (by omega)
    unfold longRemLoop
    rw [hg]
    rw [← hR, ← hP] at hqE
    have hR0 : 0 < R := by rw [hR]; exact lt_of_lt_of_le (by positivity) (psum_ge_of_pos hb2 (show nr < nr + 1 by omega) (by omega))
    have hPB : P * 1000000000 = 1000000000 ^ nr := by
      rw [hP, ← pow_succ]; congr 1; omega
    have hwide : FirstGuessWide R P (V / 1000000000 ^ n) ↔
        1000000000 ≤ (ext buf1 ((n : Int) + nr + 1) * 1000000000 + ext buf1 ((n : Int) + nr)) / dg buf2 nr := by
      unfold FirstGuessWide
      rw [hPB, hVd, win2_top hd, hR, psum_top hb2]
    have hbig : TooBig R P (V / 1000000000 ^ n) ↔ win2 buf1 nr ((n : Int) + nr) < q * psum (dg buf2) (nr + 1) := by
      rw [tooBig_iff hR0, hVd, ← hqE, hR]
    rw [remWins_succ, remRun_succ]
    by_cases hdeb : m = .debug ∧ 1000000000 ≤ (ext buf1 ((n : Int) + nr + 1) * 1000000000 + ext buf1 ((n : Int) + nr)) / dg buf2 nr
    · rw [if_pos hdeb]; exact Or.inl ⟨hdeb.1, ⟨_, List.mem_cons_self, hwide.mpr hdeb.2⟩, rfl⟩
    rw [if_neg hdeb, ok_bind]
    dsimp only
    rw [show ((n : Int) + nr - buf2.length + 1) = (n : Int) by rw [hlen2]; push_cast; ring,
      show ((n : Int) + nr + 1) = ((n + (nr + 1) : Nat) : Int) by push_cast; ring]
    rw [show ((n : Int) + nr - nr) = (n : Int) by ring] at hms' hp
    rw [show ((n : Int) + nr + 1) = ((n + (nr + 1) : Nat) : Int) by push_cast; ring] at hsum hs1 hs2 hp
    rw [ext_nat] at hsum hs1 hs2
    rw [slice_ok (by omega) (by omega) (by omega), ok_bind,
      show (n : Int).toNat = n from rfl]
    have hseg := mulSubSeg_eq (σ := σ) (m := m) (q := q) (buf2 := buf2) (nr + 1) 0 n buf1 0 0 (by omega) (by omega)
    rw [Nat.cast_zero, hms', List.drop_zero, List.take_of_length_le (l := buf2) (by omega)] at hseg
    have hcount : (((n + (nr + 1) : Nat) : Int) - (n : Int)).toNat = nr + 1 := by omega
    rw [hcount]
    cases hmm : (mulSubSeg m q ((buf1.drop n).take (nr + 1)) buf2 0 0 : Out σ _) with
    | err e st => rw [hmm] at hseg; simp at hseg
    | panic p => rw [hmm] at hseg; simp at hseg
    | ok y =>
    obtain ⟨s, c1, b1⟩ := y
    rw [hmm] at hseg
    simp only [ok_bind, Out.ok.injEq, Prod.mk.injEq] at hseg
    obtain ⟨rfl, rfl, rfl⟩ := hseg
    have hslen : s.length = nr + 1 := by
      simp only [List.length_append, List.length_take, List.length_drop] at hl1'; omega
    have hsdg : ∀ t < nr + 1, dg s t = D t := by
      intro t ht
      have h1 := hp (n + t)
      rw [seg_dg hslen (by omega), if_pos (by omega), if_pos (by push_cast; omega)] at h1
      rw [show n + t - n = t by omega, show (((n + t : Nat) : Int) - (n : Int)).toNat = t by omega] at h1
      exact h1
    have hsD : DigL s := DigL.of_dig fun t ht => by rw [hsdg t (by omega)]; exact hD t
    have hsv : unitsVal s = psum D (nr + 1) := by
      rw [unitsVal_eq_psum, hslen]; exact psum_congr hsdg
    rw [ok_bind]
    dsimp only
    rw [copyFromSlice_ok (by omega) (by omega) (by omega) (by rw [hslen]; omega), ok_bind]
    rw [show ((n + (nr + 1) : Nat) : Int).toNat = n + (nr + 1) from rfl,
      show (n : Int).toNat = n from rfl]
    set B1 := buf1.take n ++ s ++ buf1.drop (n + (nr + 1)) with hB1
    have htop : dg B1 (n + (nr + 1)) = dg buf1 (n + (nr + 1)) := by rw [hB1, seg_dg hslen (by omega), if_neg (by omega)]
    have hg0 := hd (n + (nr + 1))
    rw [idx_nat (by omega), ok_bind, htop, wrap32_ok (by omega) (by omega), i32_ok (by omega) (by omega), ok_bind,
      i32_ok (by omega) (by omega), ok_bind]
    have hD0 := psum_nonneg hD (nr + 1)
    have hD1 : psum D (nr + 1) < 1000000000 ^ (nr + 1) := psum_lt hD (nr + 1)
    -- the recursive call on a buffer whose window is `s'`
    have again : ∀ (s' : List Int), s'.length = nr + 1 → DigL s' →
        unitsVal s' < psum (dg buf2) (nr + 1) →
        ∀ B2, B2 = (buf1.take n ++ s' ++ buf1.drop (n + (nr + 1))).set (n + (nr + 1)) 0 →
        unitsVal s' = remStep R P (V / 1000000000 ^ n) →
        (m = .debug ∧ (∃ W ∈ V / 1000000000 ^ n :: remWins R P n (remNext R P n V), FirstGuessWide R P W) ∧
          (longRemLoop m buf2 (dg buf2 nr) (dg buf2 (nr - 1)) n ((n : Int) + nr - 1) B2 : Out σ _) = .panic .assert) ∨
        ¬ (m = .debug ∧ ∃ W ∈ V / 1000000000 ^ n :: remWins R P n (remNext R P n V), FirstGuessWide R P W) ∧
        ∃ l, (longRemLoop m buf2 (dg buf2 nr) (dg buf2 (nr - 1)) n ((n : Int) + nr - 1) B2 : Out σ _) = .ok l ∧
          RemLoopRes buf1 buf2 l nr (n + 1) ∧ psum (dg l) (nr + 1) = remRun R P n (remNext R P n V) := by
      intro s' hl' hd' hlt' B2 hB2 hstep
      have hB2l : B2.length = buf1.length := by
        rw [hB2, List.length_set]
        simp only [List.length_append, List.length_take, List.length_drop]; omega
      have hB2d : ∀ p, dg B2 p = if p = n + (nr + 1) then 0 else if n ≤ p ∧ p < n + (nr + 1) then dg s' (p - n) else dg buf1 p := by
        intro p
        rw [hB2, dg_set (by simp only [List.length_append, List.length_take, List.length_drop]; omega), seg_dg hl' (by omega)]
      have hB2dig : Dig (dg B2) := by
        intro p
        rw [hB2d]
        split_ifs
        · norm_num
        · exact hd'.dig _
        · exact hd p
      have hB2v : psum (dg B2) (n + (nr + 1)) = psum (dg buf1) n + 1000000000 ^ n * unitsVal s' := by
        rw [psum_add_len, unitsVal_eq_psum, hl']
        have a1 : psum (dg B2) n = psum (dg buf1) n := psum_congr fun t ht => by
          rw [hB2d, if_neg (by omega), if_neg (by omega)]
        have a2 : psum (fun t => dg B2 (n + t)) (nr + 1) = psum (dg s') (nr + 1) := psum_congr fun t ht => by
          rw [hB2d, if_neg (by omega), if_pos (by omega)]; congr 1; omega
        rw [a1, a2]
      have hlt2 : psum (dg B2) (n + (nr + 1)) < psum (dg buf2) (nr + 1) * 1000000000 ^ n := by
        rw [hB2v]
        have : 1000000000 ^ n * (unitsVal s' + 1) ≤ 1000000000 ^ n * psum (dg buf2) (nr + 1) :=
          mul_le_mul_of_nonneg_left (by omega) hBn.le
        have e1 : 1000000000 ^ n * (unitsVal s' + 1) = 1000000000 ^ n * unitsVal s' + 1000000000 ^ n := by ring
        rw [mul_comm (psum (dg buf2) (nr + 1))]
        omega
      have hnext : psum (dg B2) (n + (nr + 1)) = remNext R P n V := by
        rw [hB2v]; unfold remNext; rw [hVm, hstep]
      rw [← hR] at hlt2
      rcases longRemLoop_spec hb2 hnr hlen2 hd0 hR hP n ((n : Int) + nr - 1) B2 _ rfl (by omega) hB2dig hnext
        (by rw [← hnext]; exact hlt2) with ⟨hm, ⟨W, hW, hWw⟩, h⟩ | ⟨hno, l, e, hRes, h1⟩
      · exact Or.inl ⟨hm, ⟨W, List.mem_cons_of_mem _ hW, hWw⟩, h⟩
      · refine Or.inr ⟨?_, l, e, ⟨by rw [hRes.len, hB2l], hRes.dig, fun p hp => ?_, fun p hp1 hp2 => ?_, hRes.lt⟩, h1⟩
        · rintro ⟨hm, W, hW, hWw⟩
          rcases List.mem_cons.mp hW with rfl | hW
          · exact hdeb ⟨hm, hwide.mp hWw⟩
          · exact hno ⟨hm, W, hW, hWw⟩
        · rw [hRes.high p (by omega), hB2d, if_neg (by omega), if_neg (by omega)]
        · by_cases hpn : p < n + nr + 1
          · exact hRes.zero p hp1 hpn
          · rw [hRes.high p (by omega), hB2d, if_pos (by omega)]
    by_cases hadd : win2 buf1 nr ((n : Int) + nr) < q * psum (dg buf2) (nr + 1)
    · rw [if_pos (hs1 hadd)]
      rw [slice_ok (by omega) (by omega) (by omega), ok_bind,
        show (n : Int).toNat = n from rfl, hcount]
      have hss : (B1.drop n).take (nr + 1) = s := by
        rw [hB1, List.append_assoc, List.drop_append_of_le_length (by simp; omega),
          List.drop_of_length_le (by simp), List.nil_append, List.take_append_of_le_length (by omega),
          List.take_of_length_le (by omega)]
      rw [hss]
      obtain ⟨s', b2, en, hl', hd', hb2', heq⟩ := negSeg_spec (σ := σ) (m := m) s 0 hsD (Or.inl rfl)
      rw [en, ok_bind, copyFromSlice_ok (by omega) (by omega) (by omega) (by rw [hl', hslen]; omega), ok_bind]
      rw [show ((n + (nr + 1) : Nat) : Int).toNat = n + (nr + 1) from rfl,
        show (n : Int).toNat = n from rfl]
      have e1 : B1.take n = buf1.take n := by
        rw [hB1, List.append_assoc, List.take_append_of_le_length (by simp; omega), List.take_take, min_self]
      have e2 : B1.drop (n + (nr + 1)) = buf1.drop (n + (nr + 1)) := by
        rw [hB1, List.drop_append_of_le_length (by simp; omega), List.drop_of_length_le (by simp; omega), List.nil_append]
      rw [e1, e2, upd_nat (by simp; omega), ok_bind]
      have hv := unitsVal_bounds hd'
      rw [hl', hslen] at hv
      rw [hslen, hsv] at heq
      rw [hs1 hadd] at hsum
      have hs' : unitsVal s' = q * psum (dg buf2) (nr + 1) - win2 buf1 nr ((n : Int) + nr) := by
        have hRlt := psum_lt hb2 (nr + 1)
        rcases hb2' with rfl | rfl
        · omega
        · omega
      have hqW : q = V / 1000000000 ^ n / R + 1 := by
        have g1 := hbig.mpr hadd
        unfold TooBig at g1
        rw [hVd, ← hqE] at g1
        have g2 : q ≤ win2 buf1 nr ((n : Int) + nr) / R + 1 := by
          have : (q - 1) ≤ win2 buf1 nr ((n : Int) + nr) / R := by
            rw [Int.le_ediv_iff_mul_le hR0, hR]
            have : (q - 1) * psum (dg buf2) (nr + 1) = q * psum (dg buf2) (nr + 1) - psum (dg buf2) (nr + 1) := by ring
            omega
          omega
        rw [hVd]; omega
      have hstep : unitsVal s' = remStep R P (V / 1000000000 ^ n) := by
        unfold remStep
        rw [if_pos (hbig.mpr hadd), Int.emod_def, hs', hqW, ← hVd, ← hR]; ring
      exact again s' (by omega) hd' (by rw [hs']; exact hqR) _ rfl hstep
    · obtain ⟨hs0, hDW⟩ := hs2 (by omega)
      rw [if_neg (by omega), upd_nat (by omega), ok_bind]
      have hlt : unitsVal s < psum (dg buf2) (nr + 1) := by
        rw [hsv, hDW]
        have : (q + 1) * psum (dg buf2) (nr + 1) = q * psum (dg buf2) (nr + 1) + psum (dg buf2) (nr + 1) := by ring
        omega
      have hnb : ¬ TooBig R P (V / 1000000000 ^ n) := fun h => hadd (hbig.mp h)
      have hstep : unitsVal s = remStep R P (V / 1000000000 ^ n) := by
        unfold remStep
        rw [if_neg hnb, hsv, hVd]
        refine (emod_of_bounds (Q := q) ?_ hD0 ?_).symm
        · rw [hDW, hR]; ring
        · rw [hR, ← hsv]; exact hlt
      exact again s hslen hsD hlt _ rfl hstep

end Fxd
