import Verif.Proofs.Limited
import Verif.Proofs.DivFit
import Verif.Spec.LiteralIndex
/-!
# C93: the index `i as usize + 1` of the long division never overflows
-/

namespace Fxd.Props
open Spec
open FixedDecimal (divTo)

variable {σ : Type} {m : Mode}

theorem Ret_getUnits_range {Q : σ → Prop} {d : Int} : Ret (fun r => 0 ≤ r ∧ r ≤ 14) Q (getUnits m d : Out σ Int) := by
  unfold getUnits
  refine .bind .i8 fun e _ => ?_
  by_cases h : 0 ≤ e ∧ e < 128
  · rw [div9_ok h.1 h.2]
    show 0 ≤ e / 9 ∧ e / 9 ≤ 14
    omega
  · unfold div9
    rw [idx_oob (by simp only [DIV9_TABLE, List.length_cons, List.length_nil]; omega)]
    trivial

theorem Ret_getUnits_pos {Q : σ → Prop} {x : Int} (h : 1 ≤ x) (h' : x ≤ 247) :
    Ret (fun r => 1 ≤ r) Q (getUnits m (wrap 8 x) : Out σ Int) := by
  by_cases hx : x ≤ 119
  · rw [getUnits_wrap_ok (by omega) hx]
    show 1 ≤ (x + 8) / 9
    omega
  · obtain ⟨p, hp⟩ := getUnits_wrap_oob (m := m) (σ := σ) (x := x) (by omega) h'
    rw [hp]; trivial

theorem idxCastSucc_eq {l : List Int} {i : Int} (h0 : 0 ≤ i) (h1 : i < 1000) :
    (idxCastSucc m l i : Out σ Int) = idx l (i + 1) := by
  unfold idxCastSucc
  have e : i % 2 ^ 64 = i := Int.emod_eq_of_lt h0 (by omega)
  rw [e]
  unfold usz
  rw [if_pos (by omega)]
  rfl

theorem longDivLoopLit_eq {buf2 : List Int} {nr d0 d1 : Int} : ∀ (n : Nat) (i : Int) (buf1 res : List Int),
    (n : Int) ≤ i + 1 → i < 1000 →
      (longDivLoopLit m buf2 nr d0 d1 n i buf1 res : Out σ _) = longDivLoop m buf2 nr d0 d1 n i buf1 res
  | 0, _, _, _, _, _ => rfl
  | n + 1, i, buf1, res, h, h' => by
    have ih := fun b r => longDivLoopLit_eq (buf2 := buf2) (nr := nr) (d0 := d0) (d1 := d1) n (i - 1) b r (by push_cast at h; omega)
      (by omega)
    have hg : (guessQLit m buf1 i d0 d1 : Out σ Int) = guessQ m buf1 i d0 d1 := by
      unfold guessQLit guessQ
      rw [idxCastSucc_eq (by push_cast at h; omega) h']
    unfold longDivLoopLit longDivLoop
    simp only [ih, hg]

theorem bind_all {α β : Type} {x : Out σ α} {f g : α → Out σ β} (h : ∀ a, f a = g a) : (x >>= f) = (x >>= g) :=
  congrArg₂ _ rfl (funext h)

theorem ulz_nonneg (v : Int) : 0 ≤ unitLeadingZeroes v := by
  unfold unitLeadingZeroes
  split_ifs <;> decide

theorem ulz_le_eight {v : Int} (h : 0 < v) : unitLeadingZeroes v ≤ 8 := by
  unfold unitLeadingZeroes
  split_ifs <;> omega

set_option maxHeartbeats 1000000 in
theorem divAbsLit_eq {a b res : FixedDecimal} (ha : a.lsu.length = 9) (hb : b.lsu.length = 9) (incr : Int) :
    divAbsLit m a b res incr = divAbs m a b res incr := by
  unfold divAbsLit divAbs
  dsimp only
  refine bind_ret .getUnits fun liu _ => ?_
  refine bind_ret Ret_getUnits_range fun lfu hlfu => ?_
  refine bind_ret .getUnits fun riu _ => ?_
  refine bind_ret Ret_getUnits_range fun rfu hrfu => ?_
  refine bind_ret (.findNonZeroP _) fun rnz hr => ?_
  refine ite_same (fun _ => rfl) fun hr0 => ?_
  refine bind_ret (.findNonZeroP _) fun lnz hl => ?_
  refine ite_same (fun _ => rfl) fun hl0 => ?_
  obtain ⟨nr, rfl, hrb, hrt⟩ := hr.resolve_left (by omega)
  obtain ⟨nl, rfl, hlb, hlt⟩ := hl.resolve_left (by omega)
  refine bind_ret .any fun rtop _ => ?_
  refine bind_ret .idxEq ?_
  rintro _ ⟨-, -, rfl⟩
  have hz := ulz_le_eight hlt
  have hz' := ulz_nonneg rtop
  simp only [Int.toNat_natCast]
  generalize unitLeadingZeroes (dg a.lsu nl) = zl at *
  generalize unitLeadingZeroes rtop = zr at *
  refine bind_ret .isz fun _ _ => ?_
  refine bind_ret .isz fun _ _ => ?_
  refine bind_ret Ret_getUnits_range fun w hw => ?_
  refine bind_all fun lseg => ?_
  refine bind_all fun rseg => ?_
  generalize hge : unitsGreaterEqual lseg rseg = ge
  unfold MAX_UNITS MAX_FRAC_UNITS DIGITS_PER_UNIT
  refine bind_ret (P := fun r : Int × Int × Int × Int => 0 ≤ r.2.1 ∧ r.2.1 ≤ 14 ∧ 0 ≤ r.2.2.1 ∧ r.2.2.1 ≤ 14 ∧
    r.2.2.2 ≤ r.2.1 + r.2.2.1 - 1) ?_ ?_
  · split_ifs
    all_goals
      first
      | refine .bind Ret_getUnits_range fun v hv => ?_
        refine .ite (fun _ => trivial) fun _ => ?_
        split_ifs <;> (refine ⟨?_, ?_, ?_, ?_, ?_⟩ <;> dsimp only <;> omega)
      | refine .bind (Ret_getUnits_pos (by omega) (by omega)) fun v hv => ?_
        refine ⟨?_, ?_, ?_, ?_, ?_⟩ <;> dsimp only <;> omega
  · rintro ⟨ri, riu', w', rs⟩ ⟨h1, h2, h3, h4, h5⟩
    dsimp only at h1 h2 h3 h4 h5 ⊢
    refine ite_same (fun _ => rfl) fun _ => ?_
    refine bind_all fun f => ?_
    refine bind_all ?_
    rintro ⟨buf1, buf2⟩
    refine bind_all fun d0 => ?_
    refine bind_all fun d1 => ?_
    rw [longDivLoopLit_eq _ _ _ _ (by split_ifs <;> omega) (by split_ifs <;> omega)]

/-- **C93** the one index of the code computed with unsigned numbers below zero, `buf1[i as usize + 1]` of the long division
(`/repo/src/arith.rs:623`), never overflows: for all arguments - well-formed or not - spelling the cast and the addition out gives
the same division, in both kinds of build. -/
theorem C93_index (m : Mode) {a b : FixedDecimal} (ha : a.lsu.length = 9) (hb : b.lsu.length = 9) (res : FixedDecimal) (incr : Int) :
    divToLit m a b res incr = divTo m a b res incr := by
  unfold divToLit divTo
  rw [divAbsLit_eq ha hb]

/-- Spelled out, the index does trap at `-1` in a debug build, and reads position zero in a release build. -/
theorem C93_index_witness :
    (idxCastSucc .debug [7, 8] (-1) : Out Empty Int) = .panic .overflow ∧
      (idxCastSucc .release [7, 8] (-1) : Out Empty Int) = .ok 7 ∧
      (idxCastSucc .debug [7, 8] 0 : Out Empty Int) = .ok 8 := by
  decide

end Fxd.Props
