import Verif.Props.Machine
import Verif.Props.ReferenceParse
/-!
# Property C76: every session with the library is a session with the reference machine

`Action.step` runs the modelled code: each case is one function of the API on registers (citations there).  The theorems say that
the whole trace (all replies, errors, where it panics, the final registers) is that of `Spec/Trace.lean`.
-/

namespace Fxd
open Spec

/-- Register `i` receives the result; an error leaves there what the function left. -/
def Regs.write (s : Regs) (i : Nat) : Out FixedDecimal FixedDecimal → Option (Reply × Regs)
  | .ok d => some (.done, s.put i d)
  | .err e d => some (.failed e, s.put i d)
  | .panic _ => none

/-- The same for functions that have no error outcome. -/
def Regs.writeE (s : Regs) (i : Nat) : Out Empty FixedDecimal → Option (Reply × Regs)
  | .ok d => some (.done, s.put i d)
  | .err _ x => nomatch x
  | .panic _ => none

/-- A function that only looks. -/
def Regs.look {α : Type} (s : Regs) (f : α → Reply) : Out Unit α → Option (Reply × Regs)
  | .ok a => some (f a, s)
  | .err e _ => some (.failed e, s)
  | .panic _ => none

/-- The calls with an output parameter. -/
def Call.step (m : Mode) (s : Regs) : Call → Option (Reply × Regs)
  | .parse i bs => s.write i (FixedDecimal.fromBytesStr m (s i) bs true)
  | .fromI64 i n => s.writeE i (FixedDecimal.fromI64 m n)
  | .fromU64 i n => s.writeE i (FixedDecimal.fromU64 n)
  | .setZero i => s.writeE i (.ok (s i).setZero)
  | .setOne i => s.writeE i (.ok (s i).setOne)
  | .setNeg i => s.writeE i (.ok (s i).setNeg)
  | .setPos i => s.writeE i (.ok (s i).setPos)
  | .copy i a => s.writeE i (.ok (s a))
  | .add i a b => s.write i (FixedDecimal.addTo m (s a) (s b) (s i))
  | .sub i a b => s.write i (FixedDecimal.subTo m (s a) (s b) (s i))
  | .mul i a b => s.write i (FixedDecimal.mulTo m (s a) (s b) (s i))
  | .div i a b incr => s.write i (FixedDecimal.divTo m (s a) (s b) (s i) incr)
  | .rem i a b => s.write i (FixedDecimal.remTo m (s a) (s b) (s i))
  | .roundTo i a k => s.writeE i ((s a).roundTo m (s i) k)
  | .round i k => s.writeE i ((s i).round m k)

/-- The operators. -/
def BinOp.run (m : Mode) (a b : FixedDecimal) : BinOp → Out Empty FixedDecimal
  | .add => FixedDecimal.add m a b
  | .sub => FixedDecimal.sub m a b
  | .mul => FixedDecimal.mul m a b
  | .div => FixedDecimal.div m a b
  | .rem => FixedDecimal.rem m a b

/-- One action of the code. -/
def Action.step (m : Mode) (s : Regs) : Action → Option (Reply × Regs)
  | .call c => c.step m s
  | .parseKeep i bs => s.write i (FixedDecimal.fromBytesStr m (s i) bs false)
  | .op o i a b => s.writeE i (o.run m (s a) (s b))
  | .text a k => s.look .text (FixedDecimal.toStr m (s a) k)
  | .cmp a b => s.look .order (FixedDecimal.cmp m (s a) (s b))
  | .eq a b => s.look .truth (FixedDecimal.eq m (s a) (s b))
  | .hash a => s.look .hashed (FixedDecimal.hash m (s a))
  | .asI64 a => s.look .number ((s a).asI64 m)
  | .asU64 a => s.look .number ((s a).asU64 m)
  | .isZero a => s.look .truth (.ok (s a).isZero)
  | .isNeg a => s.look .truth (.ok (s a).isNeg)
  | .intg a => s.look .number (.ok (s a).intgDigits)
  | .frac a => s.look .number (.ok (s a).frac)

namespace Props

/-- A step leads to the registers of `Call.exec`. -/
theorem step_exec (m : Mode) (s : Regs) (c : Call) : (c.step m s).map Prod.snd = c.exec m s := by
  have h1 : ∀ i x, (s.write i x).map Prod.snd = s.store i x := by intro i x; cases x <;> rfl
  have h2 : ∀ i x, (s.writeE i x).map Prod.snd = s.storeE i x := by
    intro i x
    cases x with
    | ok d => rfl
    | err e x => exact nomatch x
    | panic p => rfl
  cases c <;> first | exact h1 _ _ | exact h2 _ _ | rfl

theorem write_seen {s : Regs} {i : Nat} {o : Out FixedDecimal FixedDecimal} {x : Option (Except Error FixedDecimal)}
    {left : FixedDecimal} (h : seen o = x) (hl : ∀ e st, o = .err e st → st = left) : s.write i o = refWrite s i left x := by
  subst h
  cases o with
  | ok d => rfl
  | err e st => rw [hl e st rfl]; rfl
  | panic p => rfl

theorem writeE_seen {s : Regs} {i : Nat} {o : Out Empty FixedDecimal} {x : Option (Except Error FixedDecimal)}
    {left : FixedDecimal} (h : seen o = x) : s.writeE i o = refWrite s i left x := by
  subst h
  cases o with
  | ok d => rfl
  | err e st => exact nomatch st
  | panic p => rfl

theorem seen_orPanic (f : Out FixedDecimal FixedDecimal) : seen (FixedDecimal.orPanic f) = panicOnError (seen f) := by
  cases f <;> rfl

theorem setNeg_withSign (d : FixedDecimal) : d.setNeg = withSign true d := by
  have h : ∀ x : BitVec 8, x ||| 0x80#8 = BitVec.ofNat 8 (128 + x.toNat % 128) := by decide +kernel
  unfold FixedDecimal.setNeg withSign intgDigits
  rw [h, if_pos rfl]

theorem setPos_withSign (d : FixedDecimal) : d.setPos = withSign false d := by
  have h : ∀ x : BitVec 8, x &&& 0x7f#8 = BitVec.ofNat 8 (x.toNat % 128) := by decide +kernel
  unfold FixedDecimal.setPos withSign intgDigits
  rw [h, if_neg (by decide)]

theorem refZero_eq : refZero = FixedDecimal.zero := dec_zero

theorem unitsOf_mod (n : Nat) (M : Int) : unitsOf n (M % 1000000000 ^ n) = unitsOf n M := by
  induction n generalizing M with
  | zero => rfl
  | succ n ih =>
    have h1 : M % 1000000000 ^ (n + 1) % 1000000000 = M % 1000000000 :=
      Int.emod_emod_of_dvd _ (Dvd.intro_left _ (pow_succ _ n).symm)
    have h2 : M % 1000000000 ^ (n + 1) / 1000000000 = M / 1000000000 % 1000000000 ^ n := by
      have e := Int.emod_emod_of_dvd M (Dvd.intro_left _ (pow_succ (1000000000 : Int) n).symm)
      have e1 := Int.mul_ediv_add_emod M (1000000000 ^ (n + 1))
      have e2 := Int.mul_ediv_add_emod (M / 1000000000) (1000000000 ^ n)
      rw [Int.ediv_ediv_of_nonneg (by norm_num), mul_comm 1000000000, ← pow_succ] at e2
      have e3 := Int.mul_ediv_add_emod M 1000000000
      have e4 := Int.mul_ediv_add_emod (M % 1000000000 ^ (n + 1)) 1000000000
      rw [pow_succ] at e1
      rw [pow_succ] at e2 e4 e ⊢
      rw [e] at e4
      have : 1000000000 * (M % (1000000000 ^ n * 1000000000) / 1000000000) = 1000000000 * (M / 1000000000 % 1000000000 ^ n) := by
        linear_combination e4 + e1 - e3 - 1000000000 * e2
      exact mul_left_cancel₀ (by norm_num) this
    unfold unitsOf
    rw [h1, h2, ih]

/-- **C29.** What the error of a multiplication leaves in the output parameter. -/
theorem C29_left {m : Mode} {a b res st : FixedDecimal} {e : Error} (ha : WF a) (hb : WF b) (hres : res.lsu.length = 9)
    (h : FixedDecimal.mulTo m a b res = .err e st) : st = mulLeft a b := by
  obtain ⟨za, zb, -, hc⟩ := (C29_wf_err_iff m ha hb hres).mp ⟨st, h⟩
  unfold mulLeft
  rcases hc with hd | ⟨hf, h9⟩
  · rw [C29_overflow m ha hb hres za zb hd.1 hd.2] at h
    injection h with _ h
    rw [if_pos hd.1, ← h, dec_zero]
  · obtain ⟨l, e', h1, h2, h3⟩ := mulTo_carry m ha hb hres za zb hf h9
    rw [e'] at h
    injection h with _ h
    rw [if_neg (by have := hf.1; omega), ← h]
    have hu : unitsOf 9 (codeMul a b) = l := by
      have e1 := unitsOf_unitsVal h2
      rw [unitsVal_eq_psum, h1, h3, unitsOf_mod] at e1
      exact e1
    unfold dec
    rw [hu]
    rfl

/-- Such products exist: 45 nines under a digit count of 37 are well-formed, the counts of the two factors add up to 74, and the
product needs ten units. Its low nine units stay behind, in a decimal that claims one digit. -/
theorem C29_witness_left (m : Mode) :
    let x : FixedDecimal := ⟨37#8, 0, [999999999, 999999999, 999999999, 999999999, 999999999, 0, 0, 0, 0]⟩
    WF x ∧ intgDigits x + intgDigits x = 74 ∧ FixedDecimal.mulTo m x x Samples.a = .err .overflow (mulLeft x x) ∧
    mulLeft x x = ⟨1#8, 0, [1, 0, 0, 0, 0, 999999998, 999999999, 999999999, 999999999]⟩ ∧ ¬ WF (mulLeft x x) := by
  cases m <;> decide +kernel

theorem divTo_left {m : Mode} {a b res st : FixedDecimal} {e : Error} (ha : WF a) (hb : WF b) (hres : res.lsu.length = 9)
    {incr : Nat} (h : FixedDecimal.divTo m a b res incr = .err e st) : st = FixedDecimal.zero := by
  by_cases zb : val b = 0
  · rw [C33_div_zero m ha hb hres zb] at h
    injection h with _ h; exact h.symm
  · by_cases za : val a = 0
    · rw [C34_zero_div m ha hb hres za zb] at h; cases h
    · have hE := divTo_eff m ha hb hres (mt val_eq_zero.mpr za) (mt val_eq_zero.mpr zb) incr
      cases hx : effIncr m a b incr with
      | none => rw [hx] at hE; dsimp only at hE; rw [hE] at h; cases h
      | some j =>
        rw [hx] at hE
        rw [hE.2] at h
        exact ((C58_overflow_iff m ha hb hres za zb hE.1).mp h).2.2.2

/-- One call of the code is one call of the reference machine. -/
theorem call_step (m : Mode) {s : Regs} (wf : ∀ j, WF (s j)) {c : Call} (hr : c.InRange) : c.step m s = refCall m s c := by
  have len : ∀ j, (s j).lsu.length = 9 := fun j => (wf j).len
  cases c with
  | parse i bs =>
    refine write_seen ((C73_parse (m := m) (s i) bs true (len i)).trans ?_) (fun e st h => ?_)
    · rw [if_pos rfl, refZero_eq]
    · rw [refZero_eq]; exact (C04_reset m bs (len i) (len i)).2 e st h
  | fromI64 i n => show s.writeE i (FixedDecimal.fromI64 m n) = _; rw [C72_from_i64 m hr.1 hr.2]; rfl
  | fromU64 i n => show s.writeE i (FixedDecimal.fromU64 n) = _; rw [C72_from_u64 hr.1 hr.2]; rfl
  | setZero i =>
    show s.writeE i (.ok (s i).setZero) = refWrite s i refZero (some (.ok refZero))
    rw [(C54_set_const (len i)).1, refZero_eq]; rfl
  | setOne i =>
    show s.writeE i (.ok (s i).setOne) = refWrite s i refZero (some (.ok (dec false 1 0 1)))
    rw [(C54_set_const (len i)).2, show dec false 1 0 1 = FixedDecimal.one by decide]; rfl
  | setNeg i => show s.writeE i (.ok (s i).setNeg) = _; rw [setNeg_withSign]; rfl
  | setPos i => show s.writeE i (.ok (s i).setPos) = _; rw [setPos_withSign]; rfl
  | copy i a => rfl
  | add i a b =>
    exact write_seen (C72_add m (wf a) (wf b) (len i))
      (fun e st h => absurd h (C22_never_err (m := m) (wf a) (wf b) (len i) e st).1)
  | sub i a b =>
    exact write_seen (C72_sub m (wf a) (wf b) (len i))
      (fun e st h => absurd h (C22_never_err (m := m) (wf a) (wf b) (len i) e st).2)
  | mul i a b =>
    exact write_seen (C72_mul m (wf a) (wf b) (len i))
      (fun e st h => C29_left (wf a) (wf b) (len i) h)
  | div i a b incr =>
    exact write_seen (C74_div m (wf a) (wf b) (len i) incr)
      (fun e st h => by rw [refZero_eq]; exact divTo_left (wf a) (wf b) (len i) h)
  | rem i a b =>
    exact write_seen (C72_rem m (wf a) (wf b) (len i))
      (fun e st h => by rw [refZero_eq]; exact (C33_rem_zero_only m (wf a) (wf b) (len i) h).2.2)
  | roundTo i a k => exact writeE_seen (C74_round_to m (wf a) (len i) hr.1)
  | round i k => exact writeE_seen (C74_round m (wf i) hr.1)

theorem op_seen (m : Mode) {a b : FixedDecimal} (ha : WF a) (hb : WF b) (o : BinOp) :
    seen (o.run m a b) = panicOnError (refOp m a b o) := by
  have len : FixedDecimal.blank.lsu.length = 9 := rfl
  cases o
  · exact (seen_orPanic _).trans (by rw [C72_add m ha hb len]; rfl)
  · exact (seen_orPanic _).trans (by rw [C72_sub m ha hb len]; rfl)
  · exact (seen_orPanic _).trans (by rw [C72_mul m ha hb len]; rfl)
  · exact (seen_orPanic _).trans (congrArg _ (C74_div m ha hb len 4))
  · exact (seen_orPanic _).trans (by rw [C72_rem m ha hb len]; rfl)

theorem units_hash {d : FixedDecimal} (h : WF d) :
    (d.lsu.take (iu d + fu d)).map (fun v => FixedDecimal.HashWrite.u32 (v % 2 ^ 32)) =
      (unitsOf (iu d + fu d) (mant d)).map .u32 := by
  have hl : (d.lsu.take (iu d + fu d)).length = iu d + fu d := by
    rw [List.length_take, h.len]; have := h.fits; omega
  have hu : unitsOf (iu d + fu d) (mant d) = d.lsu.take (iu d + fu d) := by
    have := unitsOf_unitsVal (l := d.lsu.take (iu d + fu d)) (fun u hu => h.units u (List.mem_of_mem_take hu))
    rwa [hl] at this
  rw [hu]
  refine List.map_congr_left (fun u hu => ?_)
  have := h.units u (List.mem_of_mem_take hu)
  rw [Int.emod_eq_of_lt this.1 (by norm_num; omega)]

/-- **C76.** One action of the code, on well-formed registers, is one action of the reference machine: the same reply, the same
panic, the same registers. -/
theorem C76_step (m : Mode) {s : Regs} (wf : ∀ j, WF (s j)) {a : Action} (hr : a.InRange) :
    a.step m s = refStep m s a := by
  cases a with
  | call c => exact call_step m wf hr
  | parseKeep i bs =>
    exact write_seen ((C73_parse (m := m) (s i) bs false (wf i).len).trans (by rw [if_neg (by decide)]))
      (fun e st h => C05_untouched m bs h)
  | op o i a b => exact writeE_seen (op_seen m (wf a) (wf b) o)
  | text a k => show s.look _ _ = _; rw [toStr_eq (wf a)]; rfl
  | cmp a b => show s.look _ _ = _; rw [C16_cmp_spec m (wf a) (wf b)]; rfl
  | eq a b => show s.look _ _ = _; rw [C18_eq_iff m (wf a) (wf b)]; rfl
  | hash a => show s.look _ _ = _; rw [hash_writes m (wf a), units_hash (wf a)]; rfl
  | asI64 a =>
    show s.look _ _ = inRangeOr s _ _
    unfold inRangeOr
    rw [C46_as_i64 m (wf a)]
    split_ifs <;> rfl
  | asU64 a =>
    show s.look _ _ = inRangeOr s _ _
    unfold inRangeOr
    rw [C47_as_u64 m (wf a)]
    split_ifs <;> rfl
  | isZero a =>
    show some (Reply.truth _, s) = some (Reply.truth _, s)
    rw [Bool.eq_iff_iff.mpr ((isZero_val (wf a)).trans decide_eq_true_iff.symm)]
  | isNeg a => show some (Reply.truth _, s) = some (Reply.truth _, s); rw [isNeg_eq]
  | intg a => show some (Reply.number _, s) = some (Reply.number _, s); rw [intgDigits_eq]
  | frac a => show some (Reply.number _, s) = some (Reply.number _, s); rw [(wf a).frac_eq]

/-- **C76.** Every session that stays tame is, reply by reply, the session with the reference machine, and ends with the same
registers. -/
theorem C76_trace (m : Mode) {s : Regs} (wf : ∀ j, WF (s j)) (as : List Action) (h : Tame m s as) :
    trace (Action.step m) s as = trace (refStep m) s as := by
  induction as generalizing s with
  | nil => rfl
  | cons a as ih =>
    obtain ⟨hr, hn⟩ := h
    unfold trace
    rw [C76_step m wf hr]
    cases hx : refStep m s a with
    | none => rfl
    | some p =>
      obtain ⟨r, t⟩ := p
      obtain ⟨hw, ht⟩ := hn r t hx
      dsimp only
      rw [ih hw ht]

/-- Actions after which digit counts stay truthful, whatever the registers hold: everything but division and remainder, parsing
into a dirty output, and rounding in place to a non-negative number of places (C41, C55). -/
def Plain : Action → Prop
  | .call (.div _ _ _ _) => False
  | .call (.rem _ _ _) => False
  | .call (.roundTo _ _ k) => k ≤ 127
  | .call (.round _ k) => k < 0
  | .parseKeep _ _ => False
  | .op .div _ _ _ => False
  | .op .rem _ _ _ => False
  | _ => True

/-- Actions after which registers stay well-formed: everything but multiplication and division, parsing into a dirty output, and
precisions beyond 127. -/
def PlainWF : Action → Prop
  | .call (.mul _ _ _) => False
  | .call (.div _ _ _ _) => False
  | .call (.roundTo _ _ k) => k ≤ 127
  | .call (.round _ k) => k ≤ 127
  | .parseKeep _ _ => False
  | .op .mul _ _ _ => False
  | .op .div _ _ _ => False
  | _ => True

theorem look_same {α : Type} {s t : Regs} {f : α → Reply} {o : Out Unit α} {r : Reply} (h : s.look f o = some (r, t)) : t = s := by
  cases o with
  | ok a => exact (Prod.mk.inj (Option.some.inj h)).2.symm
  | err e x => exact (Prod.mk.inj (Option.some.inj h)).2.symm
  | panic p => cases h

theorem op_call {m : Mode} {s t : Regs} {o : BinOp} {i a b : Nat} {r : Reply} (len : ∀ j, (s j).lsu.length = 9)
    (h : (Action.op o i a b).step m s = some (r, t)) :
    (match o with
      | .add => Call.add i a b
      | .sub => Call.sub i a b
      | .mul => Call.mul i a b
      | .div => Call.div i a b 4
      | .rem => Call.rem i a b).exec m s = some t := by
  have key : ∀ {f : Out FixedDecimal FixedDecimal}, s.writeE i (FixedDecimal.orPanic f) = some (r, t) → s.store i f = some t := by
    intro f h
    cases f with
    | ok d => exact congrArg some (Prod.mk.inj (Option.some.inj h)).2
    | err e x => cases h
    | panic p => cases h
  have bl : FixedDecimal.blank.lsu.length = 9 := rfl
  cases o
  · show s.store i (FixedDecimal.addTo m (s a) (s b) (s i)) = _; rw [C51_add m _ _ (len i) bl]; exact key h
  · show s.store i (FixedDecimal.subTo m (s a) (s b) (s i)) = _; rw [C51_sub m _ _ (len i) bl]; exact key h
  · show s.store i (FixedDecimal.mulTo m (s a) (s b) (s i)) = _; rw [C51_mul m _ _ (len i) bl]; exact key h
  · show s.store i (FixedDecimal.divTo m (s a) (s b) (s i) (4 : Nat)) = _; rw [C51_div m _ _ _ (len i) bl]; exact key h
  · show s.store i (FixedDecimal.remTo m (s a) (s b) (s i)) = _; rw [C51_rem m _ _ (len i) bl]; exact key h

theorem step_tight (m : Mode) {s t : Regs} (ht : ∀ j, Tight (s j)) {a : Action} {r : Reply} (hr : a.InRange) (hp : Plain a)
    (h : a.step m s = some (r, t)) : ∀ j, Tight (t j) := by
  have same : t = s → ∀ j, Tight (t j) := fun e => e ▸ ht
  cases a with
  | call c =>
    have he : c.exec m s = some t := by
      rw [← step_exec]
      exact congrArg (Option.map Prod.snd) (show c.step m s = _ from h)
    refine exec_tight m ht hr ?_ he
    cases c with
    | div => exact hp
    | rem => exact absurd hp id
    | roundTo => exact hp
    | round i k =>
      have hk : k < 0 := hp
      have := (ht i).toWF.frac_nonneg
      exact ⟨by omega, fun hf => by omega⟩
    | _ => trivial
  | parseKeep => exact absurd hp id
  | op o i a b =>
    have he := op_call (fun j => (ht j).toWF.len) h
    cases o with
    | add => exact exec_tight m (c := .add i a b) ht trivial trivial he
    | sub => exact exec_tight m (c := .sub i a b) ht trivial trivial he
    | mul => exact exec_tight m (c := .mul i a b) ht trivial trivial he
    | div => exact absurd hp id
    | rem => exact absurd hp id
  | isZero | isNeg | intg | frac => exact same (Prod.mk.inj (Option.some.inj h)).2.symm
  | _ => exact same (look_same h)

theorem castI8_nonneg {d : FixedDecimal} (hd : WF d) {k : Int} (h : k ≤ 127) (hf : d.frac ≤ k) : 0 ≤ castI8 k := by
  have := hd.frac_nonneg
  rw [castI8_small (by omega) (by omega)]; omega

theorem step_wf (m : Mode) {s t : Regs} (wf : ∀ j, WF (s j)) {a : Action} {r : Reply} (hr : a.InRange) (hp : PlainWF a)
    (h : a.step m s = some (r, t)) : ∀ j, WF (t j) := by
  have same : t = s → ∀ j, WF (t j) := fun e => e ▸ wf
  cases a with
  | call c =>
    have he : c.exec m s = some t := by
      rw [← step_exec]
      exact congrArg (Option.map Prod.snd) (show c.step m s = _ from h)
    refine exec_wf m wf hr ?_ he
    cases c with
    | div => exact absurd hp id
    | mul => exact absurd hp id
    | roundTo i a k => exact castI8_nonneg (wf a) hp
    | round i k => exact castI8_nonneg (wf i) hp
    | _ => trivial
  | parseKeep => exact absurd hp id
  | op o i a b =>
    have he := op_call (fun j => (wf j).len) h
    cases o with
    | add => exact exec_wf m (c := .add i a b) wf trivial trivial he
    | sub => exact exec_wf m (c := .sub i a b) wf trivial trivial he
    | rem => exact exec_wf m (c := .rem i a b) wf trivial trivial he
    | mul => exact absurd hp id
    | div => exact absurd hp id
  | isZero | isNeg | intg | frac => exact same (Prod.mk.inj (Option.some.inj h)).2.symm
  | _ => exact same (look_same h)

/-- **C76.** Sessions of plain actions, starting from truthful digit counts, are sessions with the reference machine, with no
further condition. -/
theorem C76_plain (m : Mode) {s : Regs} (ht : ∀ j, Tight (s j)) {as : List Action} (h : ∀ a ∈ as, a.InRange ∧ Plain a) :
    trace (Action.step m) s as = trace (refStep m) s as := by
  induction as generalizing s with
  | nil => rfl
  | cons a as ih =>
    obtain ⟨hr, hp⟩ := h a (by simp)
    have e := C76_step m (fun j => (ht j).toWF) hr
    unfold trace
    rw [e]
    cases hx : refStep m s a with
    | none => rfl
    | some p =>
      obtain ⟨r, t⟩ := p
      dsimp only
      rw [ih (step_tight m ht hr hp (e.trans hx)) (fun a ha => h a (by simp [ha]))]

/-- **C76.** The same from well-formed registers, with remainders and in-place rounding, without multiplication. -/
theorem C76_plain_wf (m : Mode) {s : Regs} (wf : ∀ j, WF (s j)) {as : List Action} (h : ∀ a ∈ as, a.InRange ∧ PlainWF a) :
    trace (Action.step m) s as = trace (refStep m) s as := by
  induction as generalizing s with
  | nil => rfl
  | cons a as ih =>
    obtain ⟨hr, hp⟩ := h a (by simp)
    have e := C76_step m wf hr
    unfold trace
    rw [e]
    cases hx : refStep m s a with
    | none => rfl
    | some p =>
      obtain ⟨r, t⟩ := p
      dsimp only
      rw [ih (step_wf m wf hr hp (e.trans hx)) (fun a ha => h a (by simp [ha]))]

/-- A session of plain actions: two texts, a product, a text that is refused, a sum by the operator, and looking at everything. -/
def sampleSession : List Action :=
  [.call (.parse 0 (Samples.bytes "123456789012.345")), .call (.parse 1 (Samples.bytes "-7.50")), .call (.mul 2 0 1),
    .call (.parse 3 (Samples.bytes "1.2.3")), .op .add 3 2 1, .text 3 (-1), .cmp 3 2, .eq 3 2, .hash 1, .asI64 3, .asU64 3,
    .isZero 3, .isNeg 3, .intg 3, .frac 3]

/-- The hypotheses of `C76_plain` hold of it, and this is what both machines answer. -/
example (m : Mode) : (∀ a ∈ sampleSession, a.InRange ∧ Plain a) ∧ (∀ j, Tight (blank j)) ∧
    (trace (refStep m) blank sampleSession).1 =
      [.done, .done, .done, .failed .conversionSyntax, .done, .text (Samples.bytes "-925925917600.08750"), .order .lt,
        .truth false, .hashed [.u8 1, .u8 1, .u8 1, .u32 500000000, .u32 7], .number (-925925917600),
        .failed .exceedsConversionTargetRange, .truth false, .truth true, .number 18, .number 5] := by
  have hp : ∀ a ∈ sampleSession, a.InRange ∧ Plain a := by
    intro a ha
    simp only [sampleSession, List.mem_cons, List.not_mem_nil, or_false] at ha
    rcases ha with rfl | rfl | rfl | rfl | rfl | rfl | rfl | rfl | rfl | rfl | rfl | rfl | rfl | rfl | rfl <;>
      first | exact ⟨trivial, trivial⟩ | exact ⟨by show (-2 ^ 63 : Int) ≤ -1 ∧ (-1 : Int) < 2 ^ 63; norm_num, trivial⟩
  refine ⟨hp, fun j => zero_tight, ?_⟩
  rw [← C76_plain m (s := blank) (fun j => zero_tight) hp]
  cases m <;> decide +kernel

theorem tame_cons {m : Mode} {s : Regs} (wf : ∀ j, WF (s j)) {a : Action} {as : List Action} (hr : a.InRange)
    {r : Reply} {t : Regs} (h : a.step m s = some (r, t)) (ht : ∀ j, WF (t j)) (has : Tame m t as) :
    Tame m s (a :: as) := by
  refine ⟨hr, fun r' t' h' => ?_⟩
  rw [← C76_step m wf hr, h] at h'
  obtain ⟨-, rfl⟩ := Prod.mk.inj (Option.some.inj h')
  exact ⟨ht, has⟩

theorem put_wf {s : Regs} (wf : ∀ j, WF (s j)) {i : Nat} {d : FixedDecimal} (hd : WF d) (j : Nat) : WF (s.put i d j) := by
  unfold Regs.put
  split_ifs
  · exact hd
  · exact wf j

/-- A tame session with a division and a remainder: `-7.50` over and modulo `1` with four more digits, shown. -/
example (m : Mode) : Tame m blank [.call (.parse 0 (Samples.bytes "-7.50")), .call (.setOne 1), .call (.div 2 0 1 4),
    .op .rem 3 0 1, .text 2 (-1)] := by
  have z : ∀ j, WF (blank j) := fun _ => zero_tight.toWF
  have hc : WF Samples.c := by decide
  have h1 : WF FixedDecimal.one := one_tight.toWF
  have w1 := put_wf z (i := 0) hc
  have w2 := put_wf w1 (i := 1) h1
  have w3 := put_wf w2 (i := 2) (d := ⟨0x81#8, 9, [500000000, 7, 0, 0, 0, 0, 0, 0, 0]⟩) (by decide)
  have w4 := put_wf w3 (i := 3) (d := ⟨0x80#8, 2, [500000000, 0, 0, 0, 0, 0, 0, 0, 0]⟩) (by decide)
  refine tame_cons (r := .done) z trivial ?_ w1 (tame_cons (r := .done) w1 trivial ?_ w2
    (tame_cons (r := .done) w2 (by show 4 < 2 ^ 64; norm_num) ?_ w3 (tame_cons (r := .done) w3 trivial ?_ w4
      ⟨by show (-2 ^ 63 : Int) ≤ -1 ∧ (-1 : Int) < 2 ^ 63; norm_num, fun r t h => ⟨?_, trivial⟩⟩)))
  · have e : FixedDecimal.fromBytesStr m FixedDecimal.zero (Samples.bytes "-7.50") true = .ok Samples.c := by
      cases m <;> decide +kernel
    exact congrArg (Regs.write blank 0) e
  · rfl
  · show Regs.write _ _ (FixedDecimal.divTo m Samples.c FixedDecimal.one FixedDecimal.zero (4 : Nat)) = _
    rw [show FixedDecimal.divTo m Samples.c FixedDecimal.one FixedDecimal.zero (4 : Nat) =
      .ok ⟨0x81#8, 9, [500000000, 7, 0, 0, 0, 0, 0, 0, 0]⟩ by cases m <;> decide +kernel]; rfl
  · show Regs.writeE _ _ (FixedDecimal.rem m Samples.c FixedDecimal.one) = _
    rw [show FixedDecimal.rem m Samples.c FixedDecimal.one =
      .ok ⟨0x80#8, 2, [500000000, 0, 0, 0, 0, 0, 0, 0, 0]⟩ by cases m <;> decide +kernel]; rfl
  · rw [← (Prod.mk.inj (Option.some.inj h)).2]; exact w4

end Props
end Fxd
