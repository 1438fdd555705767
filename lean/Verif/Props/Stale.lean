import Verif.Spec.Stale
import Verif.Proofs.StaleDiv
import Verif.Proofs.StaleRound
import Verif.Props.DebugRuns
import Verif.Props.Closed
/-!
# Property C78: units beyond the digit counts do not matter

Parsing without the reset and some products leave old contents in the units beyond the digit counts.  Everything the API shows,
and every result, is the same as if they had been cleared, with the exceptions of `Action.Blind` (witnesses at the end).
-/

namespace Fxd
open Spec

/-- Along the run of the code: arguments are in range, stale units do not show, and every unit stays below
`10^9`. -/
def Calm (m : Mode) : Regs → List Action → Prop
  | _, [] => True
  | s, a :: as => a.InRange ∧ a.Blind s ∧
      ∀ r t, a.step m s = some (r, t) → (∀ j, Usable (t j)) ∧ Calm m t as

namespace Props

variable {m : Mode} {σ : Type}

/-! ## Clearing -/

theorem take_digL {d : FixedDecimal} (h : Usable d) : DigL (d.lsu.take (iu d + fu d)) :=
  fun u hu => h.units u (List.mem_of_mem_take hu)

theorem cleared_lsu {d : FixedDecimal} (h : Usable d) :
    (cleared d).lsu = d.lsu.take (iu d + fu d) ++ List.replicate (9 - (iu d + fu d)) 0 := by
  have hl : (d.lsu.take (iu d + fu d)).length = iu d + fu d := by
    rw [List.length_take, h.len]; have := h.fits; omega
  have hu := unitsOf_unitsVal (take_digL h)
  have e : 9 = (d.lsu.take (iu d + fu d)).length + (9 - (iu d + fu d)) := by rw [hl]; have := h.fits; omega
  have hb : unitsVal (d.lsu.take (iu d + fu d)) < 1000000000 ^ (d.lsu.take (iu d + fu d)).length := by
    rw [unitsVal_eq_psum]; exact psum_lt (take_digL h).dig _
  have h0 : 0 ≤ unitsVal (d.lsu.take (iu d + fu d)) := by
    rw [unitsVal_eq_psum]; exact psum_nonneg (take_digL h).dig _
  show unitsOf 9 (mant d) = _
  unfold mant
  conv_lhs => rw [e]
  rw [unitsOf_short h0 hb, hu]

/-- **C78.** Clearing the stale units gives a well-formed decimal that differs in nothing else. -/
theorem C78_cleared {d : FixedDecimal} (h : Usable d) : WF (cleared d) ∧ Alike d (cleared d) ∧ val (cleared d) = val d := by
  have hl : (d.lsu.take (iu d + fu d)).length = iu d + fu d := by
    rw [List.length_take, h.len]; have := h.fits; omega
  have hfit := h.fits
  have e := cleared_lsu h
  have ht : (cleared d).lsu.take (iu d + fu d) = d.lsu.take (iu d + fu d) := by
    rw [e, List.take_append_of_le_length (by omega), List.take_of_length_le (by omega)]
  have hw : WF (cleared d) := by
    refine ⟨by rw [e, List.length_append, hl, List.length_replicate]; omega, fun u hu => ?_, h.frac_nonneg, h.fits, fun u hu => ?_⟩
    · rw [e, List.mem_append] at hu
      rcases hu with hu | hu
      · exact take_digL h u hu
      · rw [(List.mem_replicate.mp hu).2]; omega
    · change u ∈ (cleared d).lsu.drop (iu d + fu d) at hu
      rw [e, List.drop_append_of_le_length (by omega), List.drop_of_length_le (by omega), List.nil_append] at hu
      exact (List.mem_replicate.mp hu).2
  have ha : Alike d (cleared d) := ⟨rfl, rfl, ht.symm⟩
  refine ⟨hw, ha, ?_⟩
  exact (Sim.val_eq ⟨h, ⟨hw.len, hw.units, hw.frac_nonneg, hw.fits⟩, ha⟩).symm

theorem usable_of_wf {d : FixedDecimal} (h : WF d) : Usable d := ⟨h.len, h.units, h.frac_nonneg, h.fits⟩

theorem sim_cleared {d : FixedDecimal} (h : Usable d) : Sim d (cleared d) :=
  ⟨h, usable_of_wf (C78_cleared h).1, (C78_cleared h).2.1⟩

theorem sim_refl {d : FixedDecimal} (h : Usable d) : Sim d d := ⟨h, h, rfl, rfl, rfl⟩

theorem sim_trans {a b c : FixedDecimal} (h : Sim a b) (h' : Sim b c) : Sim a c :=
  ⟨h.left, h'.right, h.alike.intg.trans h'.alike.intg, h.alike.frac.trans h'.alike.frac, h.alike.digits.trans h'.alike.digits⟩

theorem sim_eq {a b : FixedDecimal} (h : Sim a b) (ha : WF a) (hb : WF b) : a = b := by
  have key : ∀ {d : FixedDecimal}, WF d → d.lsu = d.lsu.take (iu d + fu d) ++ List.replicate (9 - (iu d + fu d)) 0 := by
    intro d hd
    conv_lhs => rw [← List.take_append_drop (iu d + fu d) d.lsu]
    congr 1
    exact List.eq_replicate_iff.mpr ⟨by rw [List.length_drop, hd.len], hd.high⟩
  have hl : a.lsu = b.lsu := by rw [key ha, key hb, h.alike.digits, h.iu_eq, h.fu_eq]
  have h1 := h.alike.intg
  have h2 := h.alike.frac
  cases a; cases b
  simp only at h1 h2 hl
  rw [h1, h2, hl]

/-! ## Looking -/

/-- **C78.** Comparison, hashing and formatting do not see stale units. -/
theorem C78_look {a b : FixedDecimal} (ha : Usable a) (hb : Usable b) :
    (FixedDecimal.cmp m a b : Out σ _) = FixedDecimal.cmp m (cleared a) (cleared b) ∧
    (FixedDecimal.eq m a b : Out σ _) = FixedDecimal.eq m (cleared a) (cleared b) ∧
    (FixedDecimal.hash m a : Out σ _) = FixedDecimal.hash m (cleared a) ∧
    ∀ k, (FixedDecimal.toStr m a k : Out σ _) = FixedDecimal.toStr m (cleared a) k :=
  ⟨cmp_sim (sim_cleared ha) (sim_cleared hb), eq_sim (sim_cleared ha) (sim_cleared hb), hash_sim (sim_cleared ha),
    toStr_sim (sim_cleared ha)⟩

/-- **C78.** Quotients and remainders, their errors and panics included, do not depend on stale units. -/
theorem C78_div_rem {a b res : FixedDecimal} (ha : Usable a) (hb : Usable b) (incr : Int) :
    FixedDecimal.divTo m a b res incr = FixedDecimal.divTo m (cleared a) (cleared b) res incr ∧
    FixedDecimal.remTo m a b res = FixedDecimal.remTo m (cleared a) (cleared b) res :=
  ⟨divTo_sim (sim_cleared ha) (sim_cleared hb) res incr, remTo_sim (sim_cleared ha) (sim_cleared hb) res⟩

theorem isZero_sim {a a' : FixedDecimal} (h : Sim a a') (hc : CleanZero a) (hw : WF a') : a.isZero = a'.isZero := by
  by_cases h0 : mant a = 0
  · rw [sim_eq h (hc h0) hw]
  · have h1 : a'.isZero = false := by
      rw [Bool.eq_false_iff]
      intro hz
      exact h0 (h.mant_eq.trans ((isZero_iff hw).mp hz))
    rw [h1, Bool.eq_false_iff]
    intro hz
    apply h0
    unfold FixedDecimal.isZero at hz
    rw [List.all_eq_true] at hz
    unfold mant
    have : ∀ l : List Int, (∀ u ∈ l, u = 0) → unitsVal l = 0 := by
      intro l
      induction l with
      | nil => intro _; rfl
      | cons u us ih =>
        intro hl
        unfold unitsVal
        rw [hl u (by simp), ih (fun v hv => hl v (by simp [hv]))]; rfl
    exact this _ (fun u hu => by simpa using hz u (List.mem_of_mem_take hu))

theorem sign_sim {a a' : FixedDecimal} (h : Sim a a') (b : Bool) : Sim (withSign b a) (withSign b a') := by
  have hi : intgDigits a = intgDigits a' := by unfold intgDigits; rw [h.alike.intg]
  have key : ∀ d : FixedDecimal, iu (withSign b d) = iu d := by
    intro d
    cases b
    · rw [← setPos_withSign]; simp
    · rw [← setNeg_withSign]; simp
  have kf : ∀ d : FixedDecimal, fu (withSign b d) = fu d := fun _ => rfl
  refine ⟨⟨h.left.len, h.left.units, h.left.frac_nonneg, ?_⟩, ⟨h.right.len, h.right.units, h.right.frac_nonneg, ?_⟩, ?_, h.alike.frac, ?_⟩
  · rw [key, kf]; exact h.left.fits
  · rw [key, kf]; exact h.right.fits
  · show BitVec.ofNat 8 _ = BitVec.ofNat 8 _; rw [hi]
  · rw [key, key, kf, kf]; exact h.alike.digits

/-! ## Calls -/

/-- Results that agree up to stale units. -/
def Res (x y : FixedDecimal) : Prop := Usable x ∨ Usable y → Sim x y

theorem res_refl (x : FixedDecimal) : Res x x := fun h => sim_refl (h.elim id id)
theorem res_sim {x y : FixedDecimal} (h : Sim x y) : Res x y := fun _ => h

theorem rel_right {R S : FixedDecimal → FixedDecimal → Prop} {x y : Out σ FixedDecimal} (h : Rel R x y)
    (hs : ∀ a b, y = .ok b → R a b → S a b) : Rel S x y := by
  cases h with
  | ok r => exact .ok (hs _ _ rfl r)
  | err e s => exact .err e s
  | panic p => exact .panic p

theorem addTo_sim {a a' b b' : FixedDecimal} (ha : Sim a a') (hb : Sim b b') (ca : CleanZero a) (cb : CleanZero b) (wa : WF a')
    (wb : WF b') (res : FixedDecimal) : Rel Res (FixedDecimal.addTo m a b res) (FixedDecimal.addTo m a' b' res) := by
  unfold FixedDecimal.addTo
  rw [isZero_sim ha ca wa, isZero_sim hb cb wb, ha.isNeg_eq, hb.isNeg_eq, addAbs_sim ha hb, subAbs_sim ha hb]
  exact .ite (fun _ => .ok (res_sim hb)) (fun _ => .ite (fun _ => .ok (res_sim ha)) (fun _ => .of_eq rfl (fun x _ => res_refl x)))

theorem subTo_sim {a a' b b' : FixedDecimal} (ha : Sim a a') (hb : Sim b b') (ca : CleanZero a) (cb : CleanZero b) (wa : WF a')
    (wb : WF b') (res : FixedDecimal) : Rel Res (FixedDecimal.subTo m a b res) (FixedDecimal.subTo m a' b' res) := by
  have zb := isZero_sim hb cb wb
  unfold FixedDecimal.subTo
  rw [isZero_sim ha ca wa, zb, ha.isNeg_eq, hb.isNeg_eq, addAbs_sim ha hb, subAbs_sim ha hb]
  refine .ite (fun _ => ?_) (fun _ => .ite (fun _ => .ok (res_sim ha)) (fun _ => .of_eq rfl (fun x _ => res_refl x)))
  have hp : Sim b.setPos b'.setPos := by rw [setPos_withSign, setPos_withSign]; exact sign_sim hb _
  have hn : Sim b.setNeg b'.setNeg := by rw [setNeg_withSign, setNeg_withSign]; exact sign_sim hb _
  have hnp : Sim b.setNeg.setPos b'.setNeg.setPos := by rw [setPos_withSign, setPos_withSign]; exact sign_sim hn _
  have hc : Sim b.setNegAndCheckZero b'.setNegAndCheckZero := ?_
  · show Rel Res (if b.isNeg = true then _ else _) _
    rw [hb.isNeg_eq]
    exact .ite (fun _ => .ok (res_sim hp)) (fun _ => .ok (res_sim hc))
  unfold FixedDecimal.setNegAndCheckZero
  have zz : b.setNeg.isZero = b'.setNeg.isZero := zb
  dsimp only
  rw [zz]
  by_cases h : b'.setNeg.isZero = true
  · rw [if_pos h, if_pos h]; exact hnp
  · rw [if_neg h, if_neg h]; exact hn

theorem mulTo_sim {a a' b b' : FixedDecimal} (ha : Sim a a') (hb : Sim b b') (ca : CleanZero a) (cb : CleanZero b) (wa : WF a')
    (wb : WF b') (res : FixedDecimal) : FixedDecimal.mulTo m a b res = FixedDecimal.mulTo m a' b' res := by
  unfold FixedDecimal.mulTo
  rw [isZero_sim ha ca wa, isZero_sim hb cb wb, ha.isNeg_eq, hb.isNeg_eq, mulAbs_sim ha hb]

theorem roundTo_sim {d d' : FixedDecimal} (h : Sim d d') (hw : WF d') {res : FixedDecimal} (hres : res.lsu.length = 9) {k : Int}
    (hlow : -2 ^ 63 ≤ k) (hk : k ≤ 127) : Rel Res (d.roundTo m res k : Out σ _) (d'.roundTo m res k) := by
  have hf := hw.frac_nonneg
  have hx : d.frac ≤ k → 0 ≤ wrap 8 k := by
    rw [h.alike.frac]; intro hle; rw [wrap8_ok (by omega) (by omega)]; omega
  exact rel_right (roundTo_rel (m := m) (σ := σ) h res hlow hx)
    (fun a b hy r => res_sim (r.sim ((roundTo_wf m hw hres hlow hy).mpr (castI8_nonneg hw hk))))

theorem round_sim {d d' : FixedDecimal} (h : Sim d d') (hw : WF d') {k : Int} (hlow : -2 ^ 63 ≤ k) (hk : k ≤ 127)
    (hg : WF d ∨ k < d.frac ∨ unitsFor k.toNat ≤ iu d + 2 * fu d) : Rel Res (d.round m k : Out σ _) (d'.round m k) := by
  rcases hg with hg | hg
  · rw [sim_eq h hg hw]; exact .of_eq rfl (fun x _ => res_refl x)
  · have hf := hw.frac_nonneg
    have hx : d.frac ≤ k → 0 ≤ wrap 8 k ∧ unitsFor (wrap 8 k).toNat ≤ iu d + 2 * fu d := by
      intro hle
      have hle' := hle
      rw [h.alike.frac] at hle'
      rw [wrap8_ok (by omega) (by omega)]
      exact ⟨by omega, hg.resolve_left (by omega)⟩
    exact rel_right (round_rel (m := m) (σ := σ) h hlow hx)
      (fun a b hy r => res_sim (r.sim ((round_wf m hw hlow hy).mpr (castI8_nonneg hw hk))))

theorem low3_sim {a a' : FixedDecimal} (h : Sim a a') (h3 : 3 ≤ iu a + fu a) :
    (a.lsuToI64 m : Out σ _) = a'.lsuToI64 m ∧ (a.lsuToU64 m : Out σ _) = a'.lsuToU64 m := by
  unfold FixedDecimal.lsuToI64 FixedDecimal.lsuToU64
  have h0 : (idx a.lsu 0 : Out σ Int) = idx a'.lsu 0 := h.agree.idx (by omega)
  have h1 : (idx a.lsu 1 : Out σ Int) = idx a'.lsu 1 := h.agree.idx (by omega)
  have h2 : (idx a.lsu 2 : Out σ Int) = idx a'.lsu 2 := h.agree.idx (by omega)
  rw [h0, h1, h2, h.isNeg_eq]
  exact ⟨rfl, rfl⟩

theorem as_sim {a a' : FixedDecimal} (h : Sim a a') (hw : WF a') (hb : WF a ∨ 0 < fracDigits a ∨ 19 ≤ intgDigits a) :
    a.asI64 m = a'.asI64 m ∧ a.asU64 m = a'.asU64 m := by
  rcases hb with hb | hb
  · rw [sim_eq h hb hw]; exact ⟨rfl, rfl⟩
  · have key : 0 < fu a ∨ 3 ≤ iu a + fu a := by
      rcases hb with hb | hb
      · left; unfold fu unitsFor; omega
      · right; unfold iu unitsFor; omega
    have fin : (0 < fu a ∨ ((a.lsuToI64 m : Out Unit Int) = a'.lsuToI64 m ∧ (a.lsuToU64 m : Out Unit Int) = a'.lsuToU64 m)) :=
      key.imp id (low3_sim h)
    have e1 : ∀ c : FixedDecimal, Usable c → ((a.lt m c : Out Unit _) = a'.lt m c ∧ (a.gt m c : Out Unit _) = a'.gt m c) := by
      intro c hc
      unfold FixedDecimal.lt FixedDecimal.gt
      rw [cmp_sim h (sim_refl hc)]; exact ⟨rfl, rfl⟩
    unfold FixedDecimal.asI64 FixedDecimal.asU64
    rw [(e1 FixedDecimal.MIN_I64 (by decide)).1, (e1 FixedDecimal.MAX_I64 (by decide)).2, (e1 FixedDecimal.MAX_U64 (by decide)).2, h.isNeg_eq, ← h.fracUnits,
      h.left.fracUnits]
    constructor
    · refine bind_agree rfl (fun x _ => bind_agree rfl (fun y _ => ?_))
      by_cases hy : y = true
      · rw [if_pos hy, if_pos hy]
      · rw [if_neg hy, if_neg hy]
        simp only [ok_bind]
        by_cases hf : (fu a : Int) > 0
        · rw [if_pos hf, if_pos hf, roundTo0_sim h (by omega)]
        · rw [if_neg hf, if_neg hf]; exact (fin.resolve_left (by omega)).1
    · refine bind_agree rfl (fun y _ => ?_)
      by_cases hy : y = true
      · rw [if_pos hy, if_pos hy]
      · rw [if_neg hy, if_neg hy]
        simp only [ok_bind]
        by_cases hf : (fu a : Int) > 0
        · rw [if_pos hf, if_pos hf, roundTo0_sim h (by omega)]
        · rw [if_neg hf, if_neg hf]; exact (fin.resolve_left (by omega)).2

/-! ## Parsing without the reset -/

theorem refNumber_shape (m : Mode) (sg : Bool) (ip fp : List Nat) (e : Int) :
    ∃ x : Option (Except Error (Bool × Nat × Nat × Int)),
      (∀ q, x = some (.ok q) → q.2.1 < 128) ∧
      ∀ old, refNumber m old sg ip fp e = x.map (Except.map (fun q => parsedDec old q.1 q.2.1 q.2.2.1 q.2.2.2)) := by
  unfold refNumber
  dsimp only
  split_ifs
  all_goals first
    | exact ⟨none, fun _ h => (nomatch h), fun _ => rfl⟩
    | exact ⟨some (.error .conversionSyntax), fun _ h => (nomatch h), fun _ => rfl⟩
    | refine ⟨some (.ok (sg, ((ip.length : Int) + e).toNat, ((fp.length : Int) - e).toNat, (digitsVal (ip ++ fp) * 10 ^ (9 * unitsFor ((fp.length : Int) - e).toNat - ((fp.length : Int) - e)).toNat : Nat))), fun q h => ?_, fun _ => rfl⟩
      injection h with h
      injection h with h
      have : q.2.1 = ((ip.length : Int) + e).toNat := by rw [← h]
      omega
    | refine ⟨some (.ok (sg, (Int.bmod ((ip.length : Int) + e) 256).toNat, 0, (digitsVal ((ip ++ fp).take (Int.bmod ((ip.length : Int) + e) 256).toNat) : Nat))), fun q h => ?_, fun _ => rfl⟩
      injection h with h
      injection h with h
      have : q.2.1 = (Int.bmod ((ip.length : Int) + e) 256).toNat := by rw [← h]
      omega

theorem refParse_shape (m : Mode) (bs : List Nat) :
    ∃ x : Option (Except Error (Bool × Nat × Nat × Int)),
      (∀ q, x = some (.ok q) → q.2.1 < 128) ∧
      ∀ old, refParse m old bs = x.map (Except.map (fun q => parsedDec old q.1 q.2.1 q.2.2.1 q.2.2.2)) := by
  unfold refParse
  dsimp only
  split_ifs
  · exact ⟨none, fun _ h => (nomatch h), fun _ => rfl⟩
  · exact ⟨some (.error .conversionSyntax), fun _ h => (nomatch h), fun _ => rfl⟩
  · cases h : refExp m (shapeOf bs).rest with
    | none => exact ⟨none, fun _ h => (nomatch h), fun _ => rfl⟩
    | some y =>
      cases y with
      | error e => exact ⟨some (.error e), fun _ h => (nomatch h), fun _ => rfl⟩
      | ok e => exact refNumber_shape m _ _ _ e

theorem parsed_sim {old : FixedDecimal} (ho : Usable old) {sg : Bool} {I F : Nat} {M : Int}
    (hw : WF (parsedDec FixedDecimal.zero sg I F M)) (hI : I < 128) :
    Sim (parsedDec old sg I F M) (parsedDec FixedDecimal.zero sg I F M) := by
  have hiu : ∀ o, iu (parsedDec o sg I F M) = unitsFor I := by
    intro o
    unfold iu intgDigits parsedDec
    congr 1
    cases sg
    · rw [if_neg (by decide), BitVec.toNat_ofNat]; omega
    · rw [if_pos rfl, BitVec.toNat_ofNat]; omega
  have hfu : ∀ o, fu (parsedDec o sg I F M) = unitsFor F := by
    intro o; unfold fu fracDigits parsedDec; dsimp only; rw [Int.toNat_natCast]
  have hfit := hw.fits
  rw [hiu, hfu] at hfit
  have hlen : ∀ o : FixedDecimal, o.lsu.length = 9 → (parsedDec o sg I F M).lsu.length = 9 := by
    intro o h9
    show (unitsOf _ M ++ o.lsu.drop _).length = 9
    rw [List.length_append, length_unitsOf, List.length_drop, h9]; omega
  have htake : ∀ o, (parsedDec o sg I F M).lsu.take (iu (parsedDec o sg I F M) + fu (parsedDec o sg I F M)) =
      unitsOf (unitsFor I + unitsFor F) M := by
    intro o
    rw [hiu, hfu]
    show (unitsOf _ M ++ o.lsu.drop _).take _ = _
    rw [List.take_append_of_le_length (by rw [length_unitsOf]), List.take_of_length_le (by rw [length_unitsOf])]
  refine ⟨⟨hlen _ ho.len, fun u hu => ?_, Int.natCast_nonneg F, by rw [hiu, hfu]; exact hfit⟩, usable_of_wf hw, rfl, rfl, ?_⟩
  · change u ∈ unitsOf _ M ++ old.lsu.drop _ at hu
    rcases List.mem_append.mp hu with hu | hu
    · exact unitsOf_digL _ _ u hu
    · exact ho.units u (List.mem_of_mem_drop hu)
  · rw [htake, htake]

/-- **C78.** What parsing without the reset does to a usable register: nothing if it fails, and otherwise, stale units apart, what
parsing with the reset does. -/
theorem C78_parse {old : FixedDecimal} (ho : Usable old) (bs : List Nat) :
    match FixedDecimal.fromBytesStr m old bs false, FixedDecimal.fromBytesStr m FixedDecimal.zero bs true with
    | .ok d, .ok d' => Usable d ∧ WF d' ∧ Alike d d'
    | .err e st, .err e' _ => e = e' ∧ st = old
    | .panic _, .panic _ => True
    | _, _ => False := by
  obtain ⟨x, hq, hx⟩ := refParse_shape m bs
  have h1 := C73_parse (m := m) old bs false ho.len
  have h2 := C73_parse (m := m) FixedDecimal.zero bs true rfl
  rw [if_neg (by decide), hx] at h1
  rw [if_pos rfl] at h2
  have h3 := h2
  rw [hx] at h3
  have hun := @C05_untouched m bs old
  cases e1 : FixedDecimal.fromBytesStr m old bs false with
  | ok d =>
    rw [e1] at h1
    cases x with
    | none => cases h1
    | some y =>
      cases y with
      | error e => cases h1
      | ok q =>
        have e3 : d = parsedDec old q.1 q.2.1 q.2.2.1 q.2.2.2 := by
          injection h1 with h1; injection h1
        cases e2 : FixedDecimal.fromBytesStr m FixedDecimal.zero bs true with
        | ok d' =>
          rw [e2] at h3
          have e4 : d' = parsedDec FixedDecimal.zero q.1 q.2.1 q.2.2.1 q.2.2.2 := by
            injection h3 with h3; injection h3
          rw [e2] at h2
          obtain ⟨t1, t2, -⟩ := refParse_tight h2.symm
          have hs : Sim d d' := by
            rw [e3, e4]
            rw [e4] at t1
            exact parsed_sim ho t1.toWF (hq q rfl)
          exact ⟨hs.left, t1.toWF, hs.alike⟩
        | err e s => rw [e2] at h3; cases h3
        | panic p => rw [e2] at h3; cases h3
  | err e st =>
    rw [e1] at h1
    cases x with
    | none => cases h1
    | some y =>
      cases y with
      | ok q => cases h1
      | error e' =>
        have e5 : e = e' := by injection h1 with h1; injection h1
        cases e2 : FixedDecimal.fromBytesStr m FixedDecimal.zero bs true with
        | ok d' => rw [e2] at h3; cases h3
        | err e'' s =>
          rw [e2] at h3
          refine ⟨?_, hun e1⟩
          have : e'' = e' := by injection h3 with h3; injection h3
          rw [e5, this]
        | panic p => rw [e2] at h3; cases h3
  | panic p =>
    rw [e1] at h1
    cases x with
    | some y => cases y <;> cases h1
    | none =>
      cases e2 : FixedDecimal.fromBytesStr m FixedDecimal.zero bs true with
      | ok d' => rw [e2] at h3; cases h3
      | err e'' s => rw [e2] at h3; cases h3
      | panic p => trivial

/-! ## One action -/

/-- The same reply, and registers that agree up to stale units. -/
def StepRel (x y : Option (Reply × Regs)) : Prop :=
  match x, y with
  | none, none => True
  | some (r, u), some (r', v) => r = r' ∧ ∀ j, Res (u j) (v j)
  | _, _ => False

theorem put_res {s t : Regs} (h : ∀ j, Sim (s j) (t j)) {i : Nat} {x y : FixedDecimal} (hx : Res x y) (j : Nat) :
    Res (s.put i x j) (t.put i y j) := by
  unfold Regs.put
  by_cases hj : j = i
  · rw [if_pos hj, if_pos hj]; exact hx
  · rw [if_neg hj, if_neg hj]; exact res_sim (h j)

theorem write_rel {s t : Regs} (h : ∀ j, Sim (s j) (t j)) (i : Nat) {o o' : Out FixedDecimal FixedDecimal} (ho : Rel Res o o') :
    StepRel (s.write i o) (t.write i o') := by
  cases ho with
  | ok hx => exact ⟨rfl, put_res h hx⟩
  | err e st => exact ⟨rfl, put_res h (res_refl st)⟩
  | panic p => trivial

theorem writeE_rel {s t : Regs} (h : ∀ j, Sim (s j) (t j)) (i : Nat) {o o' : Out Empty FixedDecimal} (ho : Rel Res o o') :
    StepRel (s.writeE i o) (t.writeE i o') := by
  cases ho with
  | ok hx => exact ⟨rfl, put_res h hx⟩
  | err e st => exact nomatch st
  | panic p => trivial

theorem look_rel {α : Type} {s t : Regs} (h : ∀ j, Sim (s j) (t j)) (f : α → Reply) {o o' : Out Unit α} (ho : o = o') :
    StepRel (s.look f o) (t.look f o') := by
  subst ho
  cases o with
  | ok a => exact ⟨rfl, fun j => res_sim (h j)⟩
  | err e x => exact ⟨rfl, fun j => res_sim (h j)⟩
  | panic p => trivial

theorem same_out {τ : Type} {o o' : Out τ FixedDecimal} (h : o = o') : Rel Res o o' := .of_eq h (fun x _ => res_refl x)

theorem orPanic_rel {o o' : Out FixedDecimal FixedDecimal} (h : Rel Res o o') :
    Rel Res (FixedDecimal.orPanic o) (FixedDecimal.orPanic o') := by
  cases h with
  | ok hx => exact .ok hx
  | err e st => exact .panic _
  | panic p => exact .panic p

theorem call_rel (m : Mode) {s t : Regs} (h : ∀ j, Sim (s j) (t j)) (wt : ∀ j, WF (t j)) {c : Call} (hr : c.InRange)
    (hb : c.Blind s) : StepRel (c.step m s) (c.step m t) := by
  have ls : ∀ j, (s j).lsu.length = 9 := fun j => (h j).left.len
  have lt : ∀ j, (t j).lsu.length = 9 := fun j => (wt j).len
  cases c with
  | parse i bs => exact write_rel h i (same_out (C04_reset m bs (ls i) (lt i)).1)
  | fromI64 i n => exact writeE_rel h i (same_out rfl)
  | fromU64 i n => exact writeE_rel h i (same_out rfl)
  | setZero i => exact writeE_rel h i (same_out (congrArg Out.ok (h i).setZero_eq))
  | setOne i =>
    refine writeE_rel h i (same_out (congrArg Out.ok ?_))
    rw [(C54_set_const (ls i)).2, (C54_set_const (lt i)).2]
  | setNeg i =>
    refine writeE_rel h i (.ok (res_sim ?_))
    rw [setNeg_withSign, setNeg_withSign]; exact sign_sim (h i) _
  | setPos i =>
    refine writeE_rel h i (.ok (res_sim ?_))
    rw [setPos_withSign, setPos_withSign]; exact sign_sim (h i) _
  | copy i a => exact writeE_rel h i (.ok (res_sim (h a)))
  | add i a b =>
    refine write_rel h i ?_
    rw [C51_add m (t a) (t b) (lt i) (ls i)]
    exact addTo_sim (h a) (h b) hb.1 hb.2 (wt a) (wt b) _
  | sub i a b =>
    refine write_rel h i ?_
    rw [C51_sub m (t a) (t b) (lt i) (ls i)]
    exact subTo_sim (h a) (h b) hb.1 hb.2 (wt a) (wt b) _
  | mul i a b =>
    refine write_rel h i (same_out ?_)
    rw [C51_mul m (t a) (t b) (lt i) (ls i)]
    exact mulTo_sim (h a) (h b) hb.1 hb.2 (wt a) (wt b) _
  | div i a b incr =>
    refine write_rel h i (same_out ?_)
    rw [C51_div m (t a) (t b) incr (lt i) (ls i)]
    exact divTo_sim (h a) (h b) _ _
  | rem i a b =>
    refine write_rel h i (same_out ?_)
    rw [C51_rem m (t a) (t b) (lt i) (ls i)]
    exact remTo_sim (h a) (h b) _
  | roundTo i a k =>
    refine writeE_rel h i ?_
    rw [C51_round m (t a) k (lt i) (ls i)]
    exact roundTo_sim (h a) (wt a) (ls i) hr.1 hb
  | round i k => exact writeE_rel h i (round_sim (h i) (wt i) hr.1 hb.1 hb.2)

theorem step_rel (m : Mode) {s t : Regs} (h : ∀ j, Sim (s j) (t j)) (wt : ∀ j, WF (t j)) {a : Action} (hr : a.InRange)
    (hb : a.Blind s) : StepRel (a.step m s) (a.step m t) := by
  cases a with
  | call c => exact call_rel m h wt hr hb
  | parseKeep i bs =>
    have p1 := C78_parse (m := m) (h i).left bs
    have p2 := C78_parse (m := m) (usable_of_wf (wt i)) bs
    show StepRel (s.write i (FixedDecimal.fromBytesStr m (s i) bs false)) (t.write i (FixedDecimal.fromBytesStr m (t i) bs false))
    cases e0 : FixedDecimal.fromBytesStr m FixedDecimal.zero bs true with
    | ok d' =>
      rw [e0] at p1 p2
      cases e1 : FixedDecimal.fromBytesStr m (s i) bs false with
      | ok x =>
        cases e2 : FixedDecimal.fromBytesStr m (t i) bs false with
        | ok y =>
          rw [e1] at p1
          rw [e2] at p2
          exact ⟨rfl, put_res h (res_sim ⟨p1.1, p2.1, p1.2.2.intg.trans p2.2.2.intg.symm, p1.2.2.frac.trans p2.2.2.frac.symm,
            p1.2.2.digits.trans p2.2.2.digits.symm⟩)⟩
        | err e st => rw [e2] at p2; exact p2.elim
        | panic p => rw [e2] at p2; exact p2.elim
      | err e st => rw [e1] at p1; exact p1.elim
      | panic p => rw [e1] at p1; exact p1.elim
    | err e0' st0 =>
      rw [e0] at p1 p2
      cases e1 : FixedDecimal.fromBytesStr m (s i) bs false with
      | err e st =>
        cases e2 : FixedDecimal.fromBytesStr m (t i) bs false with
        | err e' st' =>
          rw [e1] at p1
          rw [e2] at p2
          refine ⟨?_, put_res h (res_sim ?_)⟩
          · rw [p1.1, p2.1]
          · rw [p1.2, p2.2]; exact h i
        | ok x => rw [e2] at p2; exact p2.elim
        | panic p => rw [e2] at p2; exact p2.elim
      | ok x => rw [e1] at p1; exact p1.elim
      | panic p => rw [e1] at p1; exact p1.elim
    | panic p0 =>
      rw [e0] at p1 p2
      cases e1 : FixedDecimal.fromBytesStr m (s i) bs false with
      | panic p =>
        cases e2 : FixedDecimal.fromBytesStr m (t i) bs false with
        | panic p' => trivial
        | ok x => rw [e2] at p2; exact p2.elim
        | err e st => rw [e2] at p2; exact p2.elim
      | ok x => rw [e1] at p1; exact p1.elim
      | err e st => rw [e1] at p1; exact p1.elim
  | op o i a b =>
    refine writeE_rel h i ?_
    cases o
    · exact orPanic_rel (addTo_sim (h a) (h b) hb.1 hb.2 (wt a) (wt b) _)
    · exact orPanic_rel (subTo_sim (h a) (h b) hb.1 hb.2 (wt a) (wt b) _)
    · exact orPanic_rel (same_out (mulTo_sim (h a) (h b) hb.1 hb.2 (wt a) (wt b) _))
    · exact orPanic_rel (same_out (divTo_sim (h a) (h b) _ _))
    · exact orPanic_rel (same_out (remTo_sim (h a) (h b) _))
  | text a k => exact look_rel h _ (toStr_sim (h a) k)
  | cmp a b => exact look_rel h _ (cmp_sim (h a) (h b))
  | eq a b => exact look_rel h _ (eq_sim (h a) (h b))
  | hash a => exact look_rel h _ (hash_sim (h a))
  | asI64 a => exact look_rel h _ (as_sim (h a) (wt a) hb).1
  | asU64 a => exact look_rel h _ (as_sim (h a) (wt a) hb).2
  | isZero a => exact look_rel h _ (congrArg Out.ok (isZero_sim (h a) hb (wt a)))
  | isNeg a => exact look_rel h _ (congrArg Out.ok (h a).isNeg_eq)
  | intg a => exact look_rel h _ (congrArg Out.ok (h a).dig_eq)
  | frac a => exact look_rel h _ (congrArg Out.ok (h a).alike.frac)

/-- **C78.** One action of the code on registers with stale units: the reply of the reference machine on cleared registers, the
same panic, and registers that differ from the reference machine's in stale units only. -/
theorem C78_step (m : Mode) {s : Regs} (hu : ∀ j, Usable (s j)) {a : Action} (hr : a.InRange)
    (hb : a.Blind s) :
    match a.step m s, tidyStep m (fun j => cleared (s j)) a with
    | none, none => True
    | some (r, u), some (r', v) => r = r' ∧ ∀ j, Usable (u j) → Alike (u j) (v j) ∧ v j = cleared (u j)
    | _, _ => False := by
  have h : ∀ j, Sim (s j) (cleared (s j)) := fun j => sim_cleared (hu j)
  have wt : ∀ j, WF (cleared (s j)) := fun j => (C78_cleared (hu j)).1
  have h1 := step_rel m (t := fun j => cleared (s j)) h wt hr hb
  rw [C76_step m wt hr] at h1
  unfold tidyStep
  generalize a.step m s = x at h1 ⊢
  generalize refStep m (fun j => cleared (s j)) a = y at h1 ⊢
  match x, y, h1 with
  | none, none, _ => trivial
  | some (r, u), some (r', v), h1 =>
    refine ⟨h1.1, fun j hj => ?_⟩
    have hS := h1.2 j (.inl hj)
    have e : cleared (v j) = cleared (u j) := by
      unfold cleared
      rw [hS.mant_eq, hS.alike.intg, hS.alike.frac]
    exact ⟨(sim_trans hS (sim_cleared hS.right)).alike, e⟩

/-- **C78.** Every calm session, on registers with stale units, is reply by reply the session with the reference machine that
clears stale units all the time; it panics where that one does, and the registers at the end differ in stale units only. -/
theorem C78_trace (m : Mode) {s : Regs} (hu : ∀ j, Usable (s j)) (as : List Action) (h : Calm m s as) :
    (trace (Action.step m) s as).1 = (trace (tidyStep m) (fun j => cleared (s j)) as).1 ∧
    match (trace (Action.step m) s as).2, (trace (tidyStep m) (fun j => cleared (s j)) as).2 with
    | none, none => True
    | some u, some v => ∀ j, Alike (u j) (v j)
    | _, _ => False := by
  induction as generalizing s with
  | nil => exact ⟨rfl, fun j => (C78_cleared (hu j)).2.1⟩
  | cons a as ih =>
    obtain ⟨hr, hb, hn⟩ := h
    have h1 := C78_step m hu hr hb
    unfold trace
    cases hx : a.step m s with
    | none =>
      rw [hx] at h1
      cases hy : tidyStep m (fun j => cleared (s j)) a with
      | none => exact ⟨rfl, trivial⟩
      | some q => rw [hy] at h1; exact h1.elim
    | some p =>
      obtain ⟨r, u⟩ := p
      rw [hx] at h1
      cases hy : tidyStep m (fun j => cleared (s j)) a with
      | none => rw [hy] at h1; exact h1.elim
      | some q =>
        obtain ⟨r', v⟩ := q
        rw [hy] at h1
        obtain ⟨ht, hc⟩ := hn r u hx
        have hv : v = fun j => cleared (u j) := funext (fun j => (h1.2 j (ht j)).2)
        dsimp only
        rw [hv, h1.1]
        obtain ⟨i1, i2⟩ := ih ht hc
        exact ⟨by rw [i1], i2⟩

/-! ## Units stay in range -/

/-- A division. -/
def _root_.Fxd.Action.IsDiv : Action → Prop
  | .call (.div _ _ _ _) => True
  | .op .div _ _ _ => True
  | _ => False

theorem mulTo_usable {a b res r : FixedDecimal} (ha : WF a) (hb : WF b) (hres : res.lsu.length = 9)
    (h : FixedDecimal.mulTo m a b res = .ok r) : Usable r := by
  by_cases hz : val a = 0 ∨ val b = 0
  · have e := mulTo_zero m ha hb hres hz
    rw [h] at e; injection e with e
    rw [e]; decide
  · push Not at hz
    obtain ⟨hf, h9, l, rfl, hl, hd, -⟩ := mulTo_inv m ha hb hres hz.1 hz.2 h
    have hI : mulIU a b ≤ 9 := by
      have := hf.1
      unfold mulIU unitsFor; omega
    have hF : mulIU a b + mulFU a b ≤ 9 := by unfold mulFU; omega
    refine ⟨by rw [signed_lsu]; exact hl, by rw [signed_lsu]; exact hd, by rw [signed_frac]; exact Int.natCast_nonneg _, ?_⟩
    rw [signed_fu]
    unfold iu
    rw [signed_intgDigits]
    have e1 : intgDigits ⟨BitVec.ofInt 8 ((9 * mulIU a b : Nat) : Int),
        ((min (fracDigits a + fracDigits b) (9 * mulFU a b) : Nat) : Int), l⟩ = 9 * mulIU a b := by
      unfold intgDigits
      dsimp only
      rw [BitVec.ofInt_natCast, BitVec.toNat_ofNat]; omega
    rw [e1]
    unfold fu fracDigits
    dsimp only
    rw [Int.toNat_natCast]
    unfold unitsFor
    omega

theorem mulTo_err_usable {a b res st : FixedDecimal} {e : Error} (ha : WF a) (hb : WF b) (hres : res.lsu.length = 9)
    (h : FixedDecimal.mulTo m a b res = .err e st) : Usable st := by
  rw [C29_left ha hb hres h]
  have key : ∀ M, Usable (dec false 1 0 M) := fun M => by
    refine ⟨length_unitsOf 9 M, unitsOf_digL 9 M, le_refl _, ?_⟩
    have h1 : iu (dec false 1 0 M) = 1 := by
      show unitsFor (intgDigits ⟨BitVec.ofNat 8 1, 0, []⟩) = 1
      decide +kernel
    have h2 : fu (dec false 1 0 M) = 0 := by
      show unitsFor (fracDigits ⟨BitVec.ofNat 8 1, 0, []⟩) = 0
      decide +kernel
    omega
  unfold mulLeft
  split_ifs
  · exact key _
  · exact key _

/-- **C78.** Units stay below `10^9` and digit counts within the nine units, whatever the stale units, under every action whose
stale units do not show: with the exception, in release builds, of division. -/
theorem C78_usable (m : Mode) {s u : Regs} (hu : ∀ j, Usable (s j)) {a : Action} {r : Reply} (hr : a.InRange)
    (hb : a.Blind s) (hq : m = .debug ∨ ¬ a.IsDiv) (h : a.step m s = some (r, u)) :
    ∀ j, Usable (u j) := by
  obtain ⟨t, hS, wt⟩ : ∃ t : Regs, (∀ j, Sim (s j) (t j)) ∧ ∀ j, WF (t j) :=
    ⟨fun j => cleared (s j), fun j => sim_cleared (hu j), fun j => (C78_cleared (hu j)).1⟩
  have h1 := step_rel m hS wt hr hb
  rw [h] at h1
  cases hy : a.step m t with
  | none => rw [hy] at h1; exact h1.elim
  | some q =>
    obtain ⟨r', v⟩ := q
    rw [hy] at h1
    suffices hv : ∀ j, Usable (v j) from fun j => (h1.2 j (.inr (hv j))).left
    by_cases hw : PlainWF a
    · exact fun j => usable_of_wf (step_wf m wt hr hw hy j)
    · have put_usable : ∀ {i : Nat} {d : FixedDecimal}, Usable d → ∀ j, Usable (t.put i d j) := by
        intro i d hd j
        unfold Regs.put
        split_ifs
        · exact hd
        · exact usable_of_wf (wt j)
      cases a with
      | call c =>
        cases c with
        | mul i a b =>
          change t.write i (FixedDecimal.mulTo m (t a) (t b) (t i)) = _ at hy
          cases ho : FixedDecimal.mulTo m (t a) (t b) (t i) with
          | ok d =>
            rw [ho] at hy
            rw [← (Prod.mk.inj (Option.some.inj hy)).2]
            exact put_usable (mulTo_usable (wt a) (wt b) (wt i).len ho)
          | err e st =>
            rw [ho] at hy
            rw [← (Prod.mk.inj (Option.some.inj hy)).2]
            refine put_usable ?_
            exact mulTo_err_usable (wt a) (wt b) (wt i).len ho
          | panic p => rw [ho] at hy; cases hy
        | div i x y incr =>
          have hm : m = .debug := hq.resolve_right (fun hc => hc trivial)
          subst hm
          refine fun j => usable_of_wf (exec_div_debug wt (i := i) (a := x) (b := y) (incr := incr) ?_ j)
          rw [← step_exec]
          exact congrArg (Option.map Prod.snd) (show (Call.div i x y incr).step .debug t = _ from hy)
        | roundTo i a k => exact absurd hb hw
        | round i k => exact absurd hb.1 hw
        | _ => exact absurd trivial hw
      | parseKeep i bs =>
        have hp := C78_parse (m := m) (usable_of_wf (wt i)) bs
        change t.write i (FixedDecimal.fromBytesStr m (t i) bs false) = _ at hy
        cases ho : FixedDecimal.fromBytesStr m (t i) bs false with
        | ok d =>
          rw [ho] at hy hp
          rw [← (Prod.mk.inj (Option.some.inj hy)).2]
          refine put_usable ?_
          cases e0 : FixedDecimal.fromBytesStr m FixedDecimal.zero bs true with
          | ok d' => rw [e0] at hp; exact hp.1
          | err e st => rw [e0] at hp; exact hp.elim
          | panic p => rw [e0] at hp; exact hp.elim
        | err e st =>
          rw [ho] at hy
          rw [← (Prod.mk.inj (Option.some.inj hy)).2]
          refine put_usable ?_
          rw [C05_untouched m bs ho]; exact usable_of_wf (wt i)
        | panic p => rw [ho] at hy; cases hy
      | op o i x y =>
        cases o with
        | mul =>
          change t.writeE i (FixedDecimal.orPanic (FixedDecimal.mulTo m (t x) (t y) FixedDecimal.blank)) = _ at hy
          cases ho : FixedDecimal.mulTo m (t x) (t y) FixedDecimal.blank with
          | ok d =>
            rw [ho] at hy
            rw [← (Prod.mk.inj (Option.some.inj hy)).2]
            exact put_usable (mulTo_usable (wt x) (wt y) rfl ho)
          | err e st => rw [ho] at hy; cases hy
          | panic p => rw [ho] at hy; cases hy
        | div =>
          have hm : m = .debug := hq.resolve_right (fun hc => hc trivial)
          subst hm
          exact fun j => usable_of_wf (exec_div_debug wt (op_call (fun j => (wt j).len) hy) j)
        | _ => exact absurd trivial hw
      | _ => exact absurd trivial hw

/-- The conditions of `Calm` without the one on units. -/
def _root_.Fxd.Quiet (m : Mode) : Regs → List Action → Prop
  | _, [] => True
  | s, a :: as => a.InRange ∧ a.Blind s ∧ ∀ r t, a.step m s = some (r, t) → Quiet m t as

theorem calm_of_quiet (m : Mode) {s : Regs} (hu : ∀ j, Usable (s j)) {as : List Action} (h : Quiet m s as)
    (hq : m = .debug ∨ ∀ a ∈ as, ¬ a.IsDiv) : Calm m s as := by
  induction as generalizing s with
  | nil => trivial
  | cons a as ih =>
    obtain ⟨hr, hb, hn⟩ := h
    refine ⟨hr, hb, fun r t ht => ?_⟩
    have ut := C78_usable m hu hr hb (hq.imp id (fun h => h a (by simp))) ht
    exact ⟨ut, ih ut (hn r t ht) (hq.imp id (fun h b hb => h b (by simp [hb])))⟩

/-- **C78.** In debug builds, and without division in release builds too, no condition on the numbers is left: only the actions at
which stale units show are excluded. -/
theorem C78_session (m : Mode) {s : Regs} (hu : ∀ j, Usable (s j)) {as : List Action} (h : Quiet m s as)
    (hq : m = .debug ∨ ∀ a ∈ as, ¬ a.IsDiv) :
    (trace (Action.step m) s as).1 = (trace (tidyStep m) (fun j => cleared (s j)) as).1 ∧
    match (trace (Action.step m) s as).2, (trace (tidyStep m) (fun j => cleared (s j)) as).2 with
    | none, none => True
    | some u, some v => ∀ j, Alike (u j) (v j)
    | _, _ => False := C78_trace m hu as (calm_of_quiet m hu h hq)

/-! ## Sums of zeros with stale units -/

theorem val_of_isZero {d : FixedDecimal} (h : d.isZero = true) : val d = 0 := by
  rw [val_eq_zero]
  unfold FixedDecimal.isZero at h
  rw [List.all_eq_true] at h
  unfold mant
  have : ∀ l : List Int, (∀ u ∈ l, u = 0) → unitsVal l = 0 := by
    intro l
    induction l with
    | nil => intro _; rfl
    | cons u us ih =>
      intro hl
      unfold unitsVal
      rw [hl u (by simp), ih (fun v hv => hl v (by simp [hv]))]; rfl
  exact this _ (fun u hu => by simpa using h u (List.mem_of_mem_take hu))

theorem addLong (m : Mode) {a b res : FixedDecimal} (ha : WF a) (hb : WF b) (hres : res.lsu.length = 9)
    (hfit : alignedUnits a b ≤ 7) :
    ∃ r, (if a.isNeg = b.isNeg then do
      let res ← addAbs m a b res
      return if a.isNeg then res.setNegAndCheckZero else res
    else do
      let (res, subNeg) ← subAbs m a b res
      return if subNeg ≠ a.isNeg then res.setNegAndCheckZero else res : Out FixedDecimal FixedDecimal) = .ok r ∧
      WF r ∧ val r = val a + val b := by
  simp only [isNeg_eq]
  by_cases hs : neg a = neg b
  · rw [if_pos hs]
    obtain ⟨r, h1, h2, h3, h4, h5, h6⟩ := addAbs_q m ha hb hres (.inl hfit)
    rw [h1]; simp only [ok_bind, pure_ok]
    have := signed_res (v := val a + val b) (neg a) ha hb h2 h3 h4 h5 (by rw [h6]; unfold val; rw [← hs]; split_ifs <;> ring)
    exact ⟨_, rfl, this.wf, this.value⟩
  · rw [if_neg hs]
    obtain ⟨r, h1, h2, h3, h4, h5, h6⟩ := subAbs_q m ha hb hres (by omega)
    rw [h1]; simp only [ok_bind, pure_ok]
    have e : ∀ x y : FixedDecimal, (if decide (absVal a < absVal b) ≠ neg a then x else y) =
        if (decide (absVal a < absVal b) != neg a) then x else y := by
      intro x y; cases neg a <;> cases decide (absVal a < absVal b) <;> simp
    rw [e]
    have := signed_res (v := val a + val b) (decide (absVal a < absVal b) != neg a) ha hb h2 h3 h4 h5 (by
      rw [h6]; unfold val
      by_cases hl : absVal a < absVal b
      · rw [abs_of_neg (by linarith)]
        cases hna : neg a <;> cases hnb : neg b <;> simp_all <;> ring
      · rw [abs_of_nonneg (by linarith), decide_eq_false hl]
        cases hna : neg a <;> cases hnb : neg b <;> simp_all <;> ring)
    exact ⟨_, rfl, this.wf, this.value⟩

/-- **C78.** A sum is numerically right whatever the stale units of its operands: only its digit counts may differ from those of
the sum of cleared operands. -/
theorem C78_sum (m : Mode) {a b res : FixedDecimal} (ha : Usable a) (hb : Usable b) (hres : res.lsu.length = 9)
    (hfit : max (iu a) (iu b) + max (fu a) (fu b) ≤ 7) :
    ∃ r, FixedDecimal.addTo m a b res = .ok r ∧ Usable r ∧ val r = val a + val b := by
  have sa := sim_cleared ha
  have sb := sim_cleared hb
  unfold FixedDecimal.addTo
  by_cases za : a.isZero = true
  · rw [if_pos za]; exact ⟨b, rfl, hb, by rw [val_of_isZero za, zero_add]⟩
  rw [if_neg za]
  by_cases zb : b.isZero = true
  · rw [if_pos zb]; exact ⟨a, rfl, ha, by rw [val_of_isZero zb, add_zero]⟩
  rw [if_neg zb]
  dsimp only
  rw [addAbs_sim sa sb, subAbs_sim sa sb, sa.isNeg_eq, sb.isNeg_eq]
  obtain ⟨r, h1, h2, h3⟩ := addLong m (C78_cleared ha).1 (C78_cleared hb).1 hres
    (show max (iu a) (iu b) + max (fu a) (fu b) ≤ 7 from hfit)
  exact ⟨r, h1, usable_of_wf h2, by rw [h3, (C78_cleared ha).2.2, (C78_cleared hb).2.2]⟩

theorem subLong (m : Mode) {a b res : FixedDecimal} (ha : WF a) (hb : WF b) (hres : res.lsu.length = 9)
    (hfit : alignedUnits a b ≤ 7) :
    ∃ r, (if a.isNeg ≠ b.isNeg then do
      let res ← addAbs m a b res
      return if a.isNeg then res.setNegAndCheckZero else res
    else do
      let (res, subNeg) ← subAbs m a b res
      return if subNeg ≠ a.isNeg then res.setNegAndCheckZero else res : Out FixedDecimal FixedDecimal) = .ok r ∧
      WF r ∧ val r = val a - val b := by
  simp only [isNeg_eq]
  by_cases hs : neg a = neg b
  · rw [if_neg (by simpa using hs)]
    obtain ⟨r, h1, h2, h3, h4, h5, h6⟩ := subAbs_q m ha hb hres (by omega)
    rw [h1]; simp only [ok_bind, pure_ok]
    have e : ∀ x y : FixedDecimal, (if decide (absVal a < absVal b) ≠ neg a then x else y) =
        if (decide (absVal a < absVal b) != neg a) then x else y := by
      intro x y; cases neg a <;> cases decide (absVal a < absVal b) <;> simp
    rw [e]
    have := signed_res (v := val a - val b) (decide (absVal a < absVal b) != neg a) ha hb h2 h3 h4 h5 (by
      rw [h6]; unfold val
      by_cases hl : absVal a < absVal b
      · rw [abs_of_neg (by linarith)]
        cases hna : neg a <;> cases hnb : neg b <;> simp_all <;> ring
      · rw [abs_of_nonneg (by linarith)]
        cases hna : neg a <;> cases hnb : neg b <;> simp_all <;> ring)
    exact ⟨_, rfl, this.wf, this.value⟩
  · rw [if_pos (by simpa using hs)]
    obtain ⟨r, h1, h2, h3, h4, h5, h6⟩ := addAbs_q m ha hb hres (.inl hfit)
    rw [h1]; simp only [ok_bind, pure_ok]
    have := signed_res (v := val a - val b) (neg a) ha hb h2 h3 h4 h5 (by
      rw [h6]; unfold val
      cases hna : neg a <;> cases hnb : neg b <;> simp_all <;> ring)
    exact ⟨_, rfl, this.wf, this.value⟩

/-- **C78.** The same for differences. -/
theorem C78_difference (m : Mode) {a b res : FixedDecimal} (ha : Usable a) (hb : Usable b) (hres : res.lsu.length = 9)
    (hfit : max (iu a) (iu b) + max (fu a) (fu b) ≤ 7) :
    ∃ r, FixedDecimal.subTo m a b res = .ok r ∧ Usable r ∧ val r = val a - val b := by
  have sa := sim_cleared ha
  have sb := sim_cleared hb
  unfold FixedDecimal.subTo
  by_cases za : a.isZero = true
  · rw [if_pos za]
    dsimp only
    have up : Usable b.setPos := by rw [setPos_withSign]; exact (sign_sim (sim_refl hb) _).left
    have un : Usable b.setNeg := by rw [setNeg_withSign]; exact (sign_sim (sim_refl hb) _).left
    have unp : Usable b.setNeg.setPos := by rw [setPos_withSign]; exact (sign_sim (sim_refl un) _).left
    rw [isNeg_eq, val_of_isZero za, zero_sub]
    by_cases hn : neg b = true
    · rw [if_pos hn]
      refine ⟨_, rfl, up, ?_⟩
      rw [val_setPos]; unfold val; rw [if_pos hn, neg_neg]
    · rw [if_neg hn]
      refine ⟨_, rfl, ?_⟩
      have hv : val b = absVal b := by unfold val; rw [if_neg hn]
      unfold FixedDecimal.setNegAndCheckZero
      dsimp only
      by_cases hz : b.setNeg.isZero = true
      · rw [if_pos hz]
        have h0 : val b = 0 := val_of_isZero (d := b) hz
        refine ⟨unp, ?_⟩
        rw [val_setPos, absVal_setNeg, ← hv, h0, neg_zero]
      · rw [if_neg hz]
        refine ⟨un, ?_⟩
        unfold val
        rw [neg_setNeg, if_pos rfl, absVal_setNeg, if_neg hn]
  rw [if_neg za]
  by_cases zb : b.isZero = true
  · rw [if_pos zb]; exact ⟨a, rfl, ha, by rw [val_of_isZero zb, sub_zero]⟩
  rw [if_neg zb]
  dsimp only
  rw [addAbs_sim sa sb, subAbs_sim sa sb, sa.isNeg_eq, sb.isNeg_eq]
  obtain ⟨r, h1, h2, h3⟩ := subLong m (C78_cleared ha).1 (C78_cleared hb).1 hres
    (show max (iu a) (iu b) + max (fu a) (fu b) ≤ 7 from hfit)
  exact ⟨r, h1, usable_of_wf h2, by rw [h3, (C78_cleared ha).2.2, (C78_cleared hb).2.2]⟩

/-! ## A session, and the exceptions -/

/-- `123456789012345678901234567890.5`. -/
def longN : FixedDecimal := ⟨30#8, 1, [500000000, 234567890, 345678901, 456789012, 123, 0, 0, 0, 0]⟩
/-- `-7.50` read over it without the reset. -/
def staleC : FixedDecimal := ⟨0x81#8, 2, [500000000, 7, 345678901, 456789012, 123, 0, 0, 0, 0]⟩

example : Usable staleC ∧ ¬ WF staleC ∧ cleared staleC = Samples.c := by
  refine ⟨by decide, fun h => ?_, by decide +kernel⟩
  have := h.high 345678901 (by decide)
  omega

/-- A session that leaves stale units and goes on with them. -/
def staleSession : List Action :=
  [.call (.parse 0 (Samples.bytes "123456789012345678901234567890.5")), .parseKeep 0 (Samples.bytes "-7.50"), .call (.fromI64 1 3),
    .op .mul 2 0 1, .call (.div 3 0 1 4), .text 2 (-1), .text 3 (-1), .asI64 0, .hash 0]

theorem quiet_cons {m : Mode} {s t : Regs} {a : Action} {as : List Action} {r : Reply} (hr : a.InRange)
    (hb : a.Blind s) (h : a.step m s = some (r, t)) (ht : Quiet m t as) : Quiet m s (a :: as) :=
  ⟨hr, hb, fun r' t' h' => by
    rw [h] at h'
    rw [← (Prod.mk.inj (Option.some.inj h')).2]; exact ht⟩

theorem parse_done {m : Mode} {s : Regs} {i : Nat} {bs : List Nat} {x d : FixedDecimal} (hx : s i = x)
    (e : FixedDecimal.fromBytesStr m x bs true = .ok d) : (Action.call (.parse i bs)).step m s = some (.done, s.put i d) := by
  show s.write i (FixedDecimal.fromBytesStr m (s i) bs true) = _
  rw [hx, e]; rfl
theorem keep_done {m : Mode} {s : Regs} {i : Nat} {bs : List Nat} {x d : FixedDecimal} (hx : s i = x)
    (e : FixedDecimal.fromBytesStr m x bs false = .ok d) : (Action.parseKeep i bs).step m s = some (.done, s.put i d) := by
  show s.write i (FixedDecimal.fromBytesStr m (s i) bs false) = _
  rw [hx, e]; rfl
theorem int_done {m : Mode} {s : Regs} {i : Nat} {n : Int} {d : FixedDecimal}
    (e : FixedDecimal.fromI64 m n = (.ok d : Out Empty _)) : (Action.call (.fromI64 i n)).step m s = some (.done, s.put i d) := by
  show s.writeE i (FixedDecimal.fromI64 m n) = _
  rw [e]; rfl
theorem mul_done {m : Mode} {s : Regs} {i a b : Nat} {x y d : FixedDecimal} (hx : s a = x) (hy : s b = y)
    (e : FixedDecimal.mul m x y = .ok d) : (Action.op .mul i a b).step m s = some (.done, s.put i d) := by
  show s.writeE i (FixedDecimal.mul m (s a) (s b)) = _
  rw [hx, hy, e]; rfl
theorem div_done {m : Mode} {s : Regs} {i a b incr : Nat} {x y z d : FixedDecimal} (hx : s a = x) (hy : s b = y) (hz : s i = z)
    (e : FixedDecimal.divTo m x y z incr = .ok d) : (Action.call (.div i a b incr)).step m s = some (.done, s.put i d) := by
  show s.write i (FixedDecimal.divTo m (s a) (s b) (s i) incr) = _
  rw [hx, hy, hz, e]; rfl
theorem text_keeps {m : Mode} {s : Regs} {a : Nat} {k : Int} (r : Reply) (t : Regs) (h : (Action.text a k).step m s = some (r, t)) :
    t = s := look_same h
theorem asI64_keeps {m : Mode} {s : Regs} {a : Nat} (r : Reply) (t : Regs) (h : (Action.asI64 a).step m s = some (r, t)) : t = s :=
  look_same h
theorem hash_keeps {m : Mode} {s : Regs} {a : Nat} (r : Reply) (t : Regs) (h : (Action.hash a).step m s = some (r, t)) : t = s :=
  look_same h

theorem quiet_look {m : Mode} {s : Regs} {a : Action} {as : List Action} (hr : a.InRange)
    (hb : a.Blind s) (h : ∀ r t, a.step m s = some (r, t) → t = s) (hq : Quiet m s as) : Quiet m s (a :: as) :=
  ⟨hr, hb, fun r t ht => by rw [h r t ht]; exact hq⟩

/-- The hypotheses of `C78_session` hold of it in a debug build, the second register holds stale units on the way, and this is what
is answered. -/
example : (∀ j, Usable (blank j)) ∧ Quiet .debug blank staleSession ∧
    ((trace (Action.step .debug) blank (staleSession.take 2)).2.map fun s => s 0) = some staleC ∧
    (trace (tidyStep .debug) blank staleSession).1 =
      [.done, .done, .done, .done, .done, .text (Samples.bytes "-22.50"), .text (Samples.bytes "-2.500000000"), .number (-8),
        .hashed [.u8 1, .u8 1, .u8 1, .u32 500000000, .u32 7]] := by
  have hu : ∀ j, Usable (blank j) := fun j => usable_of_wf zero_tight.toWF
  have hq : Quiet .debug blank staleSession := by
    have h3 : CleanZero (⟨9#8, 0, [3, 0, 0, 0, 0, 0, 0, 0, 0]⟩ : FixedDecimal) := fun h => absurd h (by decide)
    have hc : CleanZero staleC := fun h => absurd h (by decide)
    refine quiet_cons (r := .done) (t := Regs.put blank 0 longN) trivial trivial ?_
      (quiet_cons (r := .done) (t := Regs.put (Regs.put blank 0 longN) 0 staleC) trivial trivial ?_
      (quiet_cons (r := .done) (t := Regs.put (Regs.put (Regs.put blank 0 longN) 0 staleC) 1 ⟨9#8, 0, [3, 0, 0, 0, 0, 0, 0, 0, 0]⟩)
        (by show (-2 ^ 63 : Int) ≤ 3 ∧ (3 : Int) < 2 ^ 63; norm_num) trivial ?_
      (quiet_cons (r := .done) (t := Regs.put (Regs.put (Regs.put (Regs.put blank 0 longN) 0 staleC) 1
          ⟨9#8, 0, [3, 0, 0, 0, 0, 0, 0, 0, 0]⟩) 2 ⟨0x92#8, 2, [500000000, 22, 0, 0, 0, 0, 0, 0, 0]⟩) trivial ⟨hc, h3⟩ ?_
      (quiet_cons (r := .done) (t := Regs.put (Regs.put (Regs.put (Regs.put (Regs.put blank 0 longN) 0 staleC) 1
          ⟨9#8, 0, [3, 0, 0, 0, 0, 0, 0, 0, 0]⟩) 2 ⟨0x92#8, 2, [500000000, 22, 0, 0, 0, 0, 0, 0, 0]⟩) 3
          ⟨0x81#8, 9, [500000000, 2, 0, 0, 0, 0, 0, 0, 0]⟩) (by show 4 < 2 ^ 64; norm_num) trivial ?_
      (quiet_look (by show (-2 ^ 63 : Int) ≤ -1 ∧ (-1 : Int) < 2 ^ 63; norm_num) trivial text_keeps
      (quiet_look (by show (-2 ^ 63 : Int) ≤ -1 ∧ (-1 : Int) < 2 ^ 63; norm_num) trivial text_keeps
      (quiet_look trivial (.inr (.inl (by decide))) asI64_keeps
      (quiet_look trivial trivial hash_keeps trivial))))))))
    · exact parse_done (x := FixedDecimal.zero) rfl (by decide +kernel)
    · exact keep_done (x := longN) rfl (by decide +kernel)
    · exact int_done (by decide +kernel)
    · exact mul_done (x := staleC) (y := ⟨9#8, 0, [3, 0, 0, 0, 0, 0, 0, 0, 0]⟩) rfl rfl (by decide +kernel)
    · exact div_done (x := staleC) (y := ⟨9#8, 0, [3, 0, 0, 0, 0, 0, 0, 0, 0]⟩) (z := FixedDecimal.zero) rfl rfl rfl
        (by decide +kernel)
  refine ⟨hu, hq, by decide +kernel, ?_⟩
  have hb : (fun j => cleared (blank j)) = blank := by
    funext j
    show cleared FixedDecimal.zero = FixedDecimal.zero
    decide +kernel
  have := (C78_session .debug hu hq (.inl rfl)).1
  rw [hb] at this
  rw [← this]
  decide +kernel

/-- **C78** The exceptions. `5` read without the reset over `123456789012` converts to 123000000005; `0` read over it is not
zero to `is_zero`, and adding it to one gives nine integral digits instead of one; rounding the former `5` in place to 18 places
moves stale units among the digits. -/
theorem C78_exceptions (m : Mode) :
    let old : FixedDecimal := ⟨12#8, 0, [456789012, 123, 0, 0, 0, 0, 0, 0, 0]⟩
    let five : FixedDecimal := ⟨1#8, 0, [5, 123, 0, 0, 0, 0, 0, 0, 0]⟩
    let zero : FixedDecimal := ⟨1#8, 0, [0, 123, 0, 0, 0, 0, 0, 0, 0]⟩
    FixedDecimal.fromStr m (Samples.bytes "123456789012") = .ok old ∧
    FixedDecimal.fromBytesStr m old (Samples.bytes "5") false = .ok five ∧
    FixedDecimal.fromBytesStr m old (Samples.bytes "0") false = .ok zero ∧
    val five = 5 ∧ five.asI64 m = .ok 123000000005 ∧ five.asU64 m = .ok 123000000005 ∧
    val zero = 0 ∧ zero.isZero = false ∧
    FixedDecimal.addTo m zero FixedDecimal.one FixedDecimal.zero = .ok ⟨9#8, 0, [1, 0, 0, 0, 0, 0, 0, 0, 0]⟩ ∧
    FixedDecimal.addTo m (cleared zero) FixedDecimal.one FixedDecimal.zero = .ok FixedDecimal.one ∧
    (five.round m 18 : Out Unit _) = .ok ⟨1#8, 18, [5, 123, 5, 0, 0, 0, 0, 0, 0]⟩ ∧
    ((cleared five).round m 18 : Out Unit _) = .ok ⟨1#8, 18, [5, 0, 5, 0, 0, 0, 0, 0, 0]⟩ := by
  refine ⟨by cases m <;> decide +kernel, by cases m <;> decide +kernel, by cases m <;> decide +kernel, by decide +kernel,
    by cases m <;> decide +kernel, by cases m <;> decide +kernel, by decide +kernel, by decide +kernel, by cases m <;> decide +kernel,
    by cases m <;> decide +kernel, by cases m <;> decide +kernel, by cases m <;> decide +kernel⟩

end Props
end Fxd
