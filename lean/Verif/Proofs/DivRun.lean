import Verif.Proofs.DivLongTail
import Verif.Proofs.QuoRun
import Mathlib.Tactic.LinearCombination
/-!
# The loop of the long division runs as `quoRun` says
-/

namespace Fxd
open Spec

variable {σ : Type} {m : Mode}

theorem win2_fromUnit {buf1 : List Int} (hb1 : Dig (dg buf1)) {nr : Nat} {i : Int} (hi : 0 ≤ i) :
    win2 buf1 nr i = fromUnit (psum (dg buf1) (i + 2).toNat) (i - nr) := by
  unfold fromUnit
  by_cases hms : 0 ≤ i - nr
  · obtain ⟨k, hk⟩ : ∃ k : Nat, i - nr = k := ⟨(i - nr).toNat, by omega⟩
    rw [if_pos hms, hk, Int.toNat_natCast]
    have hV : psum (dg buf1) (i + 2).toNat = psum (dg buf1) k + 1000000000 ^ k * win2 buf1 nr i := by
      rw [show (i + 2).toNat = k + (nr + 2) by omega, psum_add_len]
      unfold win2
      congr 2
      refine psum_congr fun t _ => ?_
      rw [hk, show ((k : Int) + (t : Int)) = ((k + t : Nat) : Int) by push_cast; ring, ext_nat]
    have hP : (0 : Int) < 1000000000 ^ k := by positivity
    rw [hV, Int.add_mul_ediv_left _ _ hP.ne', Int.ediv_eq_zero_of_lt (psum_nonneg hb1 k) (psum_lt hb1 k), zero_add]
  · obtain ⟨E, hE⟩ : ∃ E : Nat, i - nr = -(E : Int) := ⟨(-(i - nr)).toNat, by omega⟩
    rw [if_neg hms, hE, show (-(-(E : Int))).toNat = E by omega]
    unfold win2
    rw [show (i + 2).toNat = nr + 2 - E by omega, psum_split (show E ≤ nr + 2 by omega), hE]
    rw [psum_zero_of (fun t ht => ext_neg (by omega)), zero_add, mul_comm]
    congr 1
    refine psum_congr fun t _ => ?_
    rw [show (-(E : Int) + ((E + t : Nat) : Int)) = (t : Int) by push_cast; ring, ext_nat]

theorem put_psum {buf1 buf1' : List Int} (hb1 : Dig (dg buf1)) {nr : Nat} {i : Int} (hi : 0 ≤ i) {D : Nat → Int} (hD : Dig D)
    (hp : ∀ p : Nat, (p : Int) < i + 1 → dg buf1' p = if i - nr ≤ p then D (p - (i - nr)).toNat else dg buf1 p) :
    psum (dg buf1') (i + 1).toNat = putUnit (psum (dg buf1) (i + 2).toNat) (i - nr) (psum D (nr + 1)) := by
  unfold putUnit
  by_cases hms : 0 ≤ i - nr
  · obtain ⟨k, hk⟩ : ∃ k : Nat, i - nr = k := ⟨(i - nr).toNat, by omega⟩
    rw [if_pos hms, hk, Int.toNat_natCast]
    have e2 : (i + 1).toNat = k + (nr + 1) := by omega
    have hV' : psum (dg buf1') (i + 1).toNat = psum (dg buf1) k + 1000000000 ^ k * psum D (nr + 1) := by
      rw [e2, psum_add_len]
      have a1 : psum (dg buf1') k = psum (dg buf1) k := psum_congr fun t ht => by
        rw [hp t (by omega), if_neg (by omega)]
      have a2 : psum (fun t => dg buf1' (k + t)) (nr + 1) = psum D (nr + 1) := psum_congr fun t ht => by
        rw [hp (k + t) (by push_cast; omega), if_pos (by push_cast; omega)]
        congr 1; push_cast; omega
      rw [a1, a2]
    rw [hV', show (i + 2).toNat = k + (nr + 2) by omega, psum_add_len (dg buf1) k (nr + 2), Int.add_mul_emod_self_left,
      Int.emod_eq_of_lt (psum_nonneg hb1 k) (psum_lt hb1 k)]
  · obtain ⟨E, hE⟩ : ∃ E : Nat, i - nr = -(E : Int) := ⟨(-(i - nr)).toNat, by omega⟩
    rw [if_neg hms, hE, show (-(-(E : Int))).toNat = E by omega]
    have hV' : psum D (nr + 1) = psum D E + 1000000000 ^ E * psum (dg buf1') (i + 1).toNat := by
      rw [psum_split (show E ≤ nr + 1 by omega), show (i + 1).toNat = nr + 1 - E by omega]
      congr 2
      refine psum_congr fun t ht => ?_
      rw [hp t (by omega), if_pos (by omega)]
      congr 1; omega
    have hP : (0 : Int) < 1000000000 ^ E := by positivity
    rw [hV', Int.add_mul_ediv_left _ _ hP.ne', Int.ediv_eq_zero_of_lt (psum_nonneg hD E) (psum_lt hD E), zero_add]

/-- The wrong "add back" complements units. -/
theorem divAddBack_spec {j : Nat} : ∀ (n i : Nat) (buf1 : List Int) (b : Int), i + n + j ≤ buf1.length → Dig (dg buf1) →
    (b = 0 ∨ b = -1) →
    ∃ l b', (divAddBack m j n i buf1 b : Out σ _) = .ok l ∧ l.length = buf1.length ∧ Dig (dg l) ∧
      (∀ p, ¬ (j + i ≤ p ∧ p < j + i + n) → dg l p = dg buf1 p) ∧
      psum (fun t => dg l (j + i + t)) n = b - psum (fun t => dg buf1 (j + i + t)) n - 1000000000 ^ n * b'
  | 0, i, buf1, b, _, hd, _ => ⟨buf1, b, rfl, rfl, hd, fun _ _ => rfl, by simp⟩
  | n + 1, i, buf1, b, hl, hd, hb => by
    obtain ⟨s, b1, es, hs, hb1, heq⟩ := subWithBorrow_spec (σ := σ) m (show (0 : Int) ≤ 0 ∧ (0 : Int) < 1000000000 by norm_num)
      (hd (i + j)) hb
    unfold divAddBack
    rw [show ((i : Int) + (j : Int)) = ((i + j : Nat) : Int) by push_cast; ring, idx_nat (by omega), ok_bind, es, ok_bind]
    dsimp only
    rw [upd_nat (by omega), ok_bind]
    have hd' : Dig (dg (buf1.set (i + j) s)) := by
      intro p
      rw [dg_set (by omega)]
      split_ifs
      · exact hs
      · exact hd p
    obtain ⟨l, b', e, h1, h2, h3, h4⟩ := divAddBack_spec (j := j) n (i + 1) (buf1.set (i + j) s) b1
      (by rw [List.length_set]; omega) hd' hb1
    refine ⟨l, b', by push_cast at e; exact e, by rw [h1, List.length_set], h2, fun p hp => ?_, ?_⟩
    · rw [h3 p (by omega), dg_set_ne (by omega)]
    · rw [psum_head, psum_head]
      have e1 : (fun t : Nat => dg l (j + i + (t + 1))) = fun t => dg l (j + (i + 1) + t) := by
        funext t; congr 1; ring
      have e2 : psum (fun t : Nat => dg (buf1.set (i + j) s) (j + (i + 1) + t)) n =
          psum (fun t : Nat => dg buf1 (j + i + (t + 1))) n := psum_congr fun t _ => by
        rw [dg_set_ne (by omega)]; congr 1; ring
      rw [e1, h4, e2, pow_succ]
      have e3 : dg l (j + i + 0) = s := by
        rw [h3 _ (by omega), show j + i + 0 = i + j by ring, dg_set_self (by omega)]
      rw [e3, show j + i + 0 = i + j by ring]
      generalize psum (fun t : Nat => dg buf1 (j + i + (t + 1))) n = X at *
      have : (1000000000 : Int) ^ n * 1000000000 * b' = 1000000000 * (1000000000 ^ n * b') := by ring
      rw [this]
      omega

theorem negUnits_psum {g g' : Nat → Int} (hg : Dig g) {n L T : Nat} (hT : n + L ≤ T) (h1 : ∀ p < n, g' p = g p)
    (h2 : ∀ p, n + L ≤ p → p < T → g' p = g p)
    (h3 : psum (fun t => g' (n + t)) L = (-(psum (fun t => g (n + t)) L)) % 1000000000 ^ L) :
    psum g' T = negUnits (psum g T) n L := by
  obtain ⟨M, rfl⟩ : ∃ M, T = n + (L + M) := ⟨T - n - L, by omega⟩
  have e : ∀ f : Nat → Int, psum f (n + (L + M)) = psum f n + 1000000000 ^ n * (psum (fun t => f (n + t)) L +
      1000000000 ^ L * psum (fun t => f (n + (L + t))) M) := by
    intro f
    rw [psum_add_len f n (L + M), psum_add_len _ L M]
  have hn : (0 : Int) < 1000000000 ^ n := by positivity
  have hL : (0 : Int) < 1000000000 ^ L := by positivity
  have hX0 : 0 ≤ psum (fun t => g (n + t)) L := psum_nonneg (fun t => hg _) _
  have hX1 : psum (fun t => g (n + t)) L < 1000000000 ^ L := psum_lt (f := fun t => g (n + t)) (fun t => hg _) _
  unfold negUnits
  have hX : psum g (n + (L + M)) / 1000000000 ^ n % 1000000000 ^ L = psum (fun t => g (n + t)) L := by
    rw [e g, Int.add_mul_ediv_left _ _ hn.ne', Int.ediv_eq_zero_of_lt (psum_nonneg hg n) (psum_lt hg n), zero_add,
      Int.add_mul_emod_self_left, Int.emod_eq_of_lt hX0 hX1]
  rw [hX, e g', e g, h3, psum_congr (f := g') (g := g) (n := n) (fun p hp => h1 p hp),
    psum_congr (f := fun t => g' (n + (L + t))) (g := fun t => g (n + (L + t))) (n := M) (fun p hp => h2 _ (by omega) (by omega))]
  ring

/-- What a buffer holds after the wrong correction. -/
theorem addBack_psum {buf1' l : List Int} (hb : Dig (dg buf1')) {nr n T : Nat} {b' : Int} (hl : Dig (dg l))
    (h3 : ∀ p, ¬ (n + 0 ≤ p ∧ p < n + 0 + nr) → dg l p = dg buf1' p)
    (h4 : psum (fun t => dg l (n + 0 + t)) nr = 0 - psum (fun t => dg buf1' (n + 0 + t)) nr - 1000000000 ^ nr * b')
    (hT : n ≤ T) :
    psum (dg l) T = negUnits (psum (dg buf1') T) n (min nr (T - n)) := by
  simp only [add_zero] at h3 h4
  refine negUnits_psum hb (by omega) (fun p hp => h3 p (by omega)) (fun p hp1 hp2 => h3 p (by omega)) ?_
  set L := min nr (T - n) with hL
  obtain ⟨M, hM⟩ : ∃ M, nr = L + M := ⟨nr - L, by omega⟩
  rw [hM, psum_add_len _ L M, psum_add_len _ L M] at h4
  have hX0 : 0 ≤ psum (fun t => dg l (n + t)) L := psum_nonneg (fun t => hl _) _
  have hX1 : psum (fun t => dg l (n + t)) L < 1000000000 ^ L := psum_lt (f := fun t => dg l (n + t)) (fun t => hl _) _
  symm
  refine emod_of_bounds (Q := psum (fun t => dg l (n + (L + t))) M + psum (fun t => dg buf1' (n + (L + t))) M +
    1000000000 ^ M * b') ?_ hX0 hX1
  rw [pow_add] at h4
  linear_combination -h4

/-- The loop of the long division does what `quoRun` says, whatever the guesses. -/
theorem longDivLoop_run {buf2 : List Int} (hb2 : Dig (dg buf2)) {nr : Nat} (hnr : 1 ≤ nr) (hlen2 : nr < buf2.length)
    (hd0 : 500000000 ≤ dg buf2 nr) {R P c : Int} (hR : R = psum (dg buf2) (nr + 1)) (hP : P = 1000000000 ^ (nr - 1)) :
    ∀ (n : Nat) (i : Int) (buf1 res : List Int) (V : Int), i = (n : Int) - 1 + nr + c → (1 ≤ n → 0 ≤ (nr : Int) + c) →
      i + 1 < buf1.length → nr + n ≤ buf1.length + 1 → Dig (dg buf1) → n ≤ res.length → psum (dg buf1) (i + 2).toNat = V →
      (m = .debug ∧ (∃ W ∈ quoWins R P nr c n V, FirstGuessWide R P W) ∧
        (longDivLoop m buf2 nr (dg buf2 nr) (dg buf2 (nr - 1)) n i buf1 res : Out σ _) = .panic .assert) ∨
      ¬ (m = .debug ∧ ∃ W ∈ quoWins R P nr c n V, FirstGuessWide R P W) ∧
      ∃ l, (longDivLoop m buf2 nr (dg buf2 nr) (dg buf2 (nr - 1)) n i buf1 res : Out σ _) = .ok l ∧
        l.length = res.length ∧ (∀ k, n ≤ k → dg l k = dg res k) ∧ (∀ k < n, 0 ≤ dg l k) ∧
        psum (dg l) n = quoRun R P nr c n V ∧
        ((∀ k < n, dg l k < 1000000000) ↔ ∀ W ∈ quoWins R P nr c n V, W / R < 1000000000) ∧
        l.take n = ((quoWins R P nr c n V).map (· / R)).reverse
  | 0, i, buf1, res, V, _, _, _, _, _, _, _ => by
    refine Or.inr ⟨by simp [quoWins], res, rfl, rfl, fun _ _ => rfl, fun k hk => absurd hk (by omega), rfl, ?_, rfl⟩
    simp [quoWins]
  | n + 1, i, buf1, res, V, hi, hK, hi1, hlen, hd, hres, hV => by
    have hms : i - nr = (n : Int) + c := by push_cast at hi; omega
    have hi0 : 0 ≤ i := by have := hK (by omega); push_cast at hi; omega
    have hW := win2_fromUnit hd (nr := nr) hi0
    rw [hV, hms] at hW
    obtain ⟨q, hg, hq0, hq1, hWq, hcls, buf1', c', b', D, hms', hl1', hD, hp, hc0, hc1, hb', hs1, hs2, hsum, hqR, hqE⟩ :=
      longStepX (σ := σ) (m := m) hd hb2 hnr hlen2 hd0 hi0 hi1
    rw [← hR] at hWq hs1 hs2 hsum hqR hqE
    rw [← hP] at hqE
    have hR0 : 0 < R := by
      rw [hR]; exact lt_of_lt_of_le (by positivity) (psum_ge_of_pos hb2 (show nr < nr + 1 by omega) (by omega))
    have hRlt : R < 1000000000 ^ (nr + 1) := by rw [hR]; exact psum_lt hb2 _
    have hPB : P * 1000000000 = 1000000000 ^ nr := by
      rw [hP, ← pow_succ]; congr 1; omega
    have hwide : FirstGuessWide R P (fromUnit V ((n : Int) + c)) ↔
        1000000000 ≤ (ext buf1 (i + 1) * 1000000000 + ext buf1 i) / dg buf2 nr := by
      unfold FirstGuessWide
      rw [hPB, ← hW, win2_top hd, hR, psum_top hb2]
    have hbig : TooBig R P (fromUnit V ((n : Int) + c)) ↔ win2 buf1 nr i < q * R := by
      rw [tooBig_iff hR0, ← hW, ← hqE]
    unfold longDivLoop
    rw [hg, quoWins_succ, quoRun_succ]
    by_cases hdeb : m = .debug ∧ 1000000000 ≤ (ext buf1 (i + 1) * 1000000000 + ext buf1 i) / dg buf2 nr
    · rw [if_pos hdeb]; exact Or.inl ⟨hdeb.1, ⟨_, List.mem_cons_self, hwide.mpr hdeb.2⟩, rfl⟩
    rw [if_neg hdeb, ok_bind, show ((nr : Int) + 1).toNat = nr + 1 by omega, hms', ok_bind]
    dsimp only
    have htop : dg buf1' (i + 1).toNat = ext buf1 (i + 1) := by
      rw [hp, if_neg (by omega)]; unfold ext; rw [if_pos (by omega)]
    have hg0 := ext_dig hd (i + 1)
    rw [idx_ok (by omega) (by omega), ok_bind, htop, wrap32_ok (by omega) (by omega), i32_ok (by omega) (by omega), ok_bind,
      i32_ok (by omega) (by omega), ok_bind]
    have hdig' : Dig (dg buf1') := by
      intro p
      rw [hp p]; split_ifs
      · exact hD _
      · exact hd p
    have hput : ∀ g : List Int, (∀ p : Nat, (p : Int) < i + 1 → dg g p = dg buf1' p) →
        psum (dg g) (i + 1).toNat = putUnit V ((n : Int) + c) (psum D (nr + 1)) := by
      intro g hgp
      rw [← hV, ← hms]
      refine put_psum hd hi0 hD fun p hpi => ?_
      rw [hgp p hpi, hp p]
      by_cases h1 : i - nr ≤ p
      · rw [if_pos ⟨h1, hpi⟩, if_pos h1]
      · rw [if_neg (by omega), if_neg h1]
    have hDn := psum_nonneg hD (nr + 1)
    have hDl : psum D (nr + 1) < 1000000000 ^ (nr + 1) := psum_lt hD _
    -- the recursive call
    have again : ∀ (B : List Int) (u : Int), B.length = buf1.length → Dig (dg B) → u = fromUnit V ((n : Int) + c) / R →
        0 ≤ u → psum (dg B) (i + 1).toNat = quoNext R P nr c n V →
        (m = .debug ∧ (∃ W ∈ fromUnit V ((n : Int) + c) :: quoWins R P nr c n (quoNext R P nr c n V), FirstGuessWide R P W) ∧
          (longDivLoop m buf2 nr (dg buf2 nr) (dg buf2 (nr - 1)) n (i - 1) B (res.set n u) : Out σ _) = .panic .assert) ∨
        ¬ (m = .debug ∧ ∃ W ∈ fromUnit V ((n : Int) + c) :: quoWins R P nr c n (quoNext R P nr c n V), FirstGuessWide R P W) ∧
        ∃ l, (longDivLoop m buf2 nr (dg buf2 nr) (dg buf2 (nr - 1)) n (i - 1) B (res.set n u) : Out σ _) = .ok l ∧
          l.length = res.length ∧ (∀ k, n + 1 ≤ k → dg l k = dg res k) ∧ (∀ k < n + 1, 0 ≤ dg l k) ∧
          psum (dg l) (n + 1) = fromUnit V ((n : Int) + c) / R * 1000000000 ^ n + quoRun R P nr c n (quoNext R P nr c n V) ∧
          ((∀ k < n + 1, dg l k < 1000000000) ↔
            ∀ W ∈ fromUnit V ((n : Int) + c) :: quoWins R P nr c n (quoNext R P nr c n V), W / R < 1000000000) ∧
          l.take (n + 1) =
            ((fromUnit V ((n : Int) + c) :: quoWins R P nr c n (quoNext R P nr c n V)).map (· / R)).reverse := by
      intro B u hBl hBd hu hu0 hBv
      rcases longDivLoop_run hb2 hnr hlen2 hd0 hR hP n (i - 1) B (res.set n u)
        (quoNext R P nr c n V) (by push_cast at hi; omega)
        (fun h => hK (by omega)) (by omega) (by omega) hBd (by rw [List.length_set]; omega)
        (by rw [show i - 1 + 2 = i + 1 by ring]; exact hBv) with
        ⟨hm, ⟨W, hW, hWw⟩, h⟩ | ⟨hno, l, e, h1, h2, h3, h4, h5, h6⟩
      · exact Or.inl ⟨hm, ⟨W, List.mem_cons_of_mem _ hW, hWw⟩, h⟩
      · have hln : dg l n = u := by rw [h2 n (le_refl _), dg_set_self (by omega)]
        refine Or.inr ⟨?_, l, e, by rw [h1, List.length_set], fun k hk => ?_, fun k hk => ?_, ?_, ?_, ?_⟩
        · rintro ⟨hm, W, hW, hWw⟩
          rcases List.mem_cons.mp hW with rfl | hW
          · exact hdeb ⟨hm, hwide.mp hWw⟩
          · exact hno ⟨hm, W, hW, hWw⟩
        · rw [h2 k (by omega), dg_set_ne (by omega)]
        · by_cases hkn : k = n
          · rw [hkn, hln]; exact hu0
          · exact h3 k (by omega)
        · rw [psum_succ, hln, h4, hu]; ring
        · constructor
          · intro h W hW
            rcases List.mem_cons.mp hW with rfl | hW
            · rw [← hu, ← hln]; exact h n (by omega)
            · exact h5.mp (fun k hk => h k (by omega)) W hW
          · intro h k hk
            by_cases hkn : k = n
            · rw [hkn, hln, hu]; exact h _ List.mem_cons_self
            · exact h5.mpr (fun W hW => h W (List.mem_cons_of_mem _ hW)) k (by omega)
        · have hll : n < l.length := by rw [h1, List.length_set]; omega
          have hget : l[n] = u := by rw [← hln]; simp [dg, hll]
          rw [List.take_succ_eq_append_getElem hll, h6, hget, hu]
          simp
    by_cases hadd : win2 buf1 nr i < q * R
    · have hT := hbig.mpr hadd
      have hqW : q = win2 buf1 nr i / R + 1 := by
        have g1 := hT
        unfold TooBig at g1
        rw [← hW, ← hqE] at g1
        have : (q - 1) ≤ win2 buf1 nr i / R := by
          rw [Int.le_ediv_iff_mul_le hR0]
          have : (q - 1) * R = q * R - R := by ring
          omega
        omega
      have hW0 : 0 ≤ win2 buf1 nr i := psum_nonneg (ext_digf hd _) _
      have hWR : 0 ≤ win2 buf1 nr i / R := Int.ediv_nonneg hW0 hR0.le
      rw [if_pos (hs1 hadd), i64_ok (by omega) (by omega), ok_bind]
      obtain ⟨l, b2, e, g1, g2, g3, g4⟩ := divAddBack_spec (σ := σ) (m := m) (j := n) nr 0 buf1' 0 (by omega) hdig'
        (Or.inl rfl)
      rw [show (nr : Int).toNat = nr from rfl, show ((0 : Nat) : Int) = 0 from rfl] at *
      rw [e, ok_bind, upd_nat (by omega), ok_bind, wrap32_ok (by omega) (by omega)]
      rw [hs1 hadd] at hsum
      refine again l (q - 1) (by omega) g2 (by rw [← hW]; omega) (by omega) ?_
      rw [addBack_psum hdig' g2 g3 g4 (by have := hK (by omega); omega), hput buf1' (fun _ _ => rfl)]
      unfold quoNext
      rw [if_pos hT]
      have e1 : psum D (nr + 1) = 1000000000 ^ (nr + 1) - (R - fromUnit V ((n : Int) + c) % R) := by
        rw [Int.emod_def, ← hW]
        rw [hqW] at hsum
        linear_combination -hsum
      have e2 : min nr ((i + 1).toNat - n) = min nr ((nr : Int) + 1 + c).toNat := by omega
      rw [e1, e2]
    · obtain ⟨hs0, hDW⟩ := hs2 (by omega)
      rw [if_neg (by omega), upd_ok (by omega) (by omega), ok_bind, upd_nat (by omega), ok_bind, wrap32_ok (by omega) (by omega)]
      have hnb : ¬ TooBig R P (fromUnit V ((n : Int) + c)) := fun h => hadd (hbig.mp h)
      have hlt : psum D (nr + 1) < R := by
        rw [hDW]
        have : (q + 1) * R = q * R + R := by ring
        omega
      have hqW : q = fromUnit V ((n : Int) + c) / R := by
        rw [← hW]
        have h1 : q ≤ win2 buf1 nr i / R := by rw [Int.le_ediv_iff_mul_le hR0]; omega
        have h2 : win2 buf1 nr i / R < q + 1 := by rw [Int.ediv_lt_iff_lt_mul hR0]; exact hWq
        omega
      have hmod : psum D (nr + 1) = fromUnit V ((n : Int) + c) % R := by
        rw [Int.emod_def, ← hqW, ← hW, hDW]; ring
      refine again (buf1'.set (i + 1).toNat 0) q (by rw [List.length_set]; omega) ?_ hqW hq0 ?_
      · intro p
        rw [dg_set (by omega)]; split_ifs
        · norm_num
        · exact hdig' p
      · rw [hput _ (fun p hpi => by rw [dg_set_ne (by omega)]), hmod]
        unfold quoNext
        rw [if_neg hnb]

end Fxd
