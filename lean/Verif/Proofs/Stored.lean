import Verif.Model.Ops
import Verif.Model.Parse
import Verif.Spec.Stored
import Mathlib.Tactic.SplitIfs
import Mathlib.Tactic.Linarith
import Mathlib.Tactic.NormNum
/-!
# What is stored stays within the types of the fields

A structural walk over the functions that write decimals, with no assumption on the operands but that they are values of
the struct.  `Ret P Q x`: if `x` finishes its value satisfies `P`; if it returns an error the state left behind satisfies
`Q`.
-/

namespace Fxd
open Spec

/-- Postconditions for both ways of returning. -/
def Ret {σ α : Type} (P : α → Prop) (Q : σ → Prop) : Out σ α → Prop
  | .ok a => P a
  | .err _ s => Q s
  | .panic _ => True

/-- Nine units, or any other number of them. -/
def Buf (n : Nat) (l : List Int) : Prop := l.length = n ∧ Units32 l

theorem Spec.I32.zero : I32 0 := by constructor <;> norm_num
theorem Spec.I32.one : I32 1 := by constructor <;> norm_num
theorem Spec.I32.neg1 : I32 (-1) := by constructor <;> norm_num
theorem Spec.I32.wrap (x : Int) : I32 (wrap 32 x) := by
  have h1 := Int.le_bmod (x := x) (m := 2 ^ 32) (by norm_num)
  have h2 := Int.bmod_lt (x := x) (m := 2 ^ 32) (by norm_num)
  unfold Fxd.wrap
  norm_num at h1 h2
  constructor
  · norm_num; omega
  · norm_num; omega
theorem wrap8 (x : Int) : -128 ≤ wrap 8 x ∧ wrap 8 x < 128 := by
  have h1 := Int.le_bmod (x := x) (m := 2 ^ 8) (by norm_num)
  have h2 := Int.bmod_lt (x := x) (m := 2 ^ 8) (by norm_num)
  unfold Fxd.wrap
  norm_num at h1 h2
  constructor
  · norm_num; omega
  · norm_num; omega

theorem Spec.Units32.nil : Units32 [] := by intro u h; cases h
theorem Spec.Units32.cons {u : Int} {l : List Int} (h : I32 u) (hl : Units32 l) : Units32 (u :: l) := by
  intro v hv
  rcases List.mem_cons.mp hv with rfl | hv
  · exact h
  · exact hl v hv
theorem Spec.Units32.append {l k : List Int} (hl : Units32 l) (hk : Units32 k) : Units32 (l ++ k) := by
  intro v hv
  rcases List.mem_append.mp hv with hv | hv
  · exact hl v hv
  · exact hk v hv
theorem Spec.Units32.take {l : List Int} (hl : Units32 l) (n : Nat) : Units32 (l.take n) := fun v hv => hl v (List.mem_of_mem_take hv)
theorem Spec.Units32.drop {l : List Int} (hl : Units32 l) (n : Nat) : Units32 (l.drop n) := fun v hv => hl v (List.mem_of_mem_drop hv)
theorem Spec.Units32.replicate (n : Nat) : Units32 (List.replicate n 0) := by
  intro v hv
  rw [(List.mem_replicate.mp hv).2]; exact I32.zero
theorem Spec.Units32.set {l : List Int} (hl : Units32 l) (n : Nat) {u : Int} (h : I32 u) : Units32 (l.set n u) := by
  intro v hv
  rcases List.mem_or_eq_of_mem_set hv with hv | rfl
  · exact hl v hv
  · exact h
theorem Spec.Units32.head {u : Int} {l : List Int} (h : Units32 (u :: l)) : I32 u := h u (by simp)
theorem Spec.Units32.tail {u : Int} {l : List Int} (h : Units32 (u :: l)) : Units32 l := fun v hv => h v (by simp [hv])

namespace Ret
variable {σ α β : Type} {m : Mode} {P : α → Prop} {Q : σ → Prop} {R : β → Prop}

theorem ok {a : α} (h : P a) : Ret P Q (.ok a : Out σ α) := h
theorem pure {a : α} (h : P a) : Ret P Q (pure a : Out σ α) := h
theorem err {e : Error} {s : σ} (h : Q s) : Ret P Q (.err e s : Out σ α) := h
theorem panic {p : Panic} : Ret P Q (.panic p : Out σ α) := trivial
theorem bind {x : Out σ α} {f : α → Out σ β} (h : Ret P Q x) (hf : ∀ a, P a → Ret R Q (f a)) : Ret R Q (x >>= f) := by
  cases x with
  | ok a => exact hf a h
  | err e s => exact h
  | panic p => trivial
theorem ite {c : Prop} [Decidable c] {x y : Out σ α} (h : c → Ret P Q x) (h' : ¬ c → Ret P Q y) :
    Ret P Q (if c then x else y) := by
  by_cases hc : c
  · rw [if_pos hc]; exact h hc
  · rw [if_neg hc]; exact h' hc
theorem mono {P' : α → Prop} {x : Out σ α} (h : Ret P Q x) (hp : ∀ a, P a → P' a) : Ret P' Q x := by
  cases x with
  | ok a => exact hp a h
  | err e s => exact h
  | panic p => trivial

theorem sarith {b : Nat} {x : Int} : Ret (fun _ => True) Q (sarith m b x : Out σ Int) := by
  unfold Fxd.sarith
  cases m
  · exact ite (fun _ => trivial) (fun _ => trivial)
  · exact ite (fun _ => trivial) (fun _ => trivial)
theorem i64 {x : Int} : Ret (fun _ => True) Q (i64 m x : Out σ Int) := sarith
theorem isz {x : Int} : Ret (fun _ => True) Q (isz m x : Out σ Int) := sarith
theorem usz {x : Int} : Ret (fun _ => True) Q (usz m x : Out σ Int) := by
  unfold Fxd.usz
  cases m
  · exact ite (fun _ => trivial) (fun _ => trivial)
  · exact ite (fun _ => trivial) (fun _ => trivial)
theorem i32 {x : Int} : Ret I32 Q (i32 m x : Out σ Int) := by
  unfold Fxd.i32 Fxd.sarith
  refine ite (fun h => ok ?_) (fun _ => ?_)
  · norm_num at h; exact h
  · cases m
    · exact panic
    · exact ok (I32.wrap x)
theorem i8 {x : Int} : Ret (fun v => -128 ≤ v ∧ v < 128) Q (i8 m x : Out σ Int) := by
  unfold Fxd.i8 Fxd.sarith
  refine ite (fun h => ok ?_) (fun _ => ?_)
  · norm_num at h; exact h
  · cases m
    · exact panic
    · exact ok (wrap8 x)
theorem dassert {c : Bool} : Ret (fun _ => True) Q (dassert m c : Out σ Unit) := by
  cases m
  · cases c <;> trivial
  · trivial
theorem idiv {a b : Int} : Ret (fun _ => True) Q (idiv a b : Out σ Int) :=
  ite (fun _ => trivial) fun _ => ite (fun _ => trivial) fun _ => trivial
theorem any {l : List α} {i : Int} : Ret (fun _ => True) Q (idx l i : Out σ α) := by
  unfold Fxd.idx
  refine ite (fun h => ?_) (fun _ => trivial)
  cases l[i.toNat]? <;> trivial
theorem idx {l : List Int} {i : Int} (h : Units32 l) : Ret I32 Q (idx l i : Out σ Int) := by
  unfold Fxd.idx
  refine ite (fun _ => ?_) (fun _ => trivial)
  cases hx : l[i.toNat]? with
  | none => trivial
  | some v => exact h v (List.mem_of_getElem? hx)
theorem div9 {d : Int} : Ret (fun _ => True) Q (div9 d : Out σ Int) := any
theorem mod9 {d : Int} : Ret (fun _ => True) Q (mod9 d : Out σ Int) := any
theorem getUnits {d : Int} : Ret (fun _ => True) Q (getUnits m d : Out σ Int) := bind i8 fun _ _ => div9
theorem intgUnits {d : FixedDecimal} : Ret (fun _ => True) Q (d.intgUnits m : Out σ Int) := getUnits
theorem fracUnits {d : FixedDecimal} : Ret (fun _ => True) Q (d.fracUnits m : Out σ Int) := getUnits
theorem upd {n : Nat} {l : List Int} {i v : Int} (h : Buf n l) (hv : I32 v) : Ret (Buf n) Q (upd l i v : Out σ (List Int)) :=
  ite (fun _ => ok ⟨by rw [List.length_set]; exact h.1, h.2.set _ hv⟩) (fun _ => trivial)
theorem slice {l : List Int} {a b : Int} (h : Units32 l) : Ret Units32 Q (slice l a b : Out σ (List Int)) :=
  ite (fun _ => ok ((h.drop _).take _)) (fun _ => trivial)
theorem copyFromSlice {n : Nat} {l s : List Int} {a b : Int} (h : Buf n l) (hs : Units32 s) :
    Ret (Buf n) Q (copyFromSlice l a b s : Out σ (List Int)) := by
  refine ite (fun hc => ok ⟨?_, ((h.2.take _).append hs).append (h.2.drop _)⟩) (fun _ => trivial)
  rw [List.length_append, List.length_append, List.length_take, List.length_drop, ← h.1]
  omega
theorem copyWithin {n : Nat} {l : List Int} {a b d : Int} (h : Buf n l) : Ret (Buf n) Q (copyWithin l a b d : Out σ (List Int)) := by
  refine ite (fun hc => ok ⟨?_, ((h.2.take _).append ((h.2.drop _).take _)).append (h.2.drop _)⟩) (fun _ => trivial)
  rw [List.length_append, List.length_append, List.length_take, List.length_drop, List.length_take, List.length_drop, ← h.1]
  omega
theorem zeroRange {n : Nat} {l : List Int} {a b : Int} (h : Buf n l) : Ret (Buf n) Q (zeroRange l a b : Out σ (List Int)) := by
  refine ite (fun hc => ok ⟨?_, ((h.2.take _).append (Units32.replicate _)).append (h.2.drop _)⟩) (fun _ => trivial)
  rw [List.length_append, List.length_append, List.length_take, List.length_drop, List.length_replicate, ← h.1]
  omega

theorem sliceAny {l : List Int} {a b : Int} : Ret (fun _ => True) Q (Fxd.slice l a b : Out σ (List Int)) :=
  ite (fun _ => trivial) (fun _ => trivial)
theorem copyAny {l s : List Int} {a b : Int} : Ret (fun _ => True) Q (Fxd.copyFromSlice l a b s : Out σ (List Int)) :=
  ite (fun _ => trivial) (fun _ => trivial)
theorem updAny {l : List Int} {a b : Int} : Ret (fun _ => True) Q (Fxd.upd l a b : Out σ (List Int)) :=
  ite (fun _ => trivial) (fun _ => trivial)

end Ret

/-! ## The struct -/

theorem Spec.Stored.buf {d : FixedDecimal} (h : Stored d) : Buf 9 d.lsu := ⟨h.len, h.units⟩
theorem Buf.stored {i : BitVec 8} {f : Int} {l : List Int} (h : Buf 9 l) (hf : -128 ≤ f ∧ f < 128) : Stored ⟨i, f, l⟩ := ⟨h.1, h.2, hf⟩
theorem buf_zero : Buf 9 zeroUnits := ⟨rfl, Units32.replicate 9⟩
theorem buf_zero18 : Buf 18 (List.replicate 18 0) := ⟨rfl, Units32.replicate 18⟩
theorem stored_zero : Stored .zero := buf_zero.stored (by norm_num)
theorem stored_blank : Stored .blank := buf_zero.stored (by norm_num)
theorem frac0 : (-128 : Int) ≤ 0 ∧ (0 : Int) < 128 := by norm_num

theorem Spec.Stored.setNeg {d : FixedDecimal} (h : Stored d) : Stored d.setNeg := ⟨h.len, h.units, h.frac⟩
theorem Spec.Stored.setPos {d : FixedDecimal} (h : Stored d) : Stored d.setPos := ⟨h.len, h.units, h.frac⟩
theorem Spec.Stored.setZero {d : FixedDecimal} (h : d.lsu.length = 9) : Stored d.setZero := by
  refine ⟨by show (List.map _ _).length = 9; rw [List.length_map]; exact h, ?_, frac0⟩
  intro u hu
  obtain ⟨v, -, rfl⟩ := List.mem_map.mp (show u ∈ d.lsu.map fun _ => (0 : Int) from hu)
  exact I32.zero
theorem Spec.Stored.setOne {d : FixedDecimal} (h : Stored d) : Stored d.setOne := by
  have hz := Spec.Stored.setZero h.len
  refine ⟨?_, hz.units.set 0 I32.one, frac0⟩
  show (List.set d.setZero.lsu 0 1).length = 9
  rw [List.length_set]; exact hz.len
theorem Spec.Stored.setNegAndCheckZero {d : FixedDecimal} (h : Stored d) : Stored d.setNegAndCheckZero := by
  unfold FixedDecimal.setNegAndCheckZero
  dsimp only
  split_ifs
  · exact h.setNeg.setPos
  · exact h.setNeg

variable {σ : Type} {m : Mode} {Q : σ → Prop}

/-! ## Rounding -/

theorem Ret.addWithCarry {a b c : Int} : Ret (fun p => I32 p.1 ∧ I32 p.2) Q (addWithCarry m a b c : Out σ (Int × Int)) :=
  .bind .i32 fun _ _ => .bind .i32 fun _ h => .ite (fun _ => .bind .i32 fun _ h => .pure ⟨h, .one⟩) (fun _ => .pure ⟨h, .zero⟩)
theorem Ret.subWithBorrow {a b c : Int} : Ret (fun p => I32 p.1 ∧ I32 p.2) Q (subWithBorrow m a b c : Out σ (Int × Int)) :=
  .bind .i32 fun _ _ => .bind .i32 fun _ h => .ite (fun _ => .bind .i32 fun _ h => .pure ⟨h, .neg1⟩) (fun _ => .pure ⟨h, .zero⟩)

theorem Ret.carryLoop {l : List Int} (h : Units32 l) (c : Int) :
    Ret (fun p => Units32 p.1) Q (carryLoop m l c : Out σ (List Int × Int)) := by
  induction l generalizing c with
  | nil => exact Units32.nil
  | cons u us ih =>
    unfold Fxd.carryLoop
    refine .bind .addWithCarry ?_
    rintro ⟨r, c'⟩ ⟨hr, -⟩
    refine .ite (fun _ => .pure (h.tail.cons hr)) (fun _ => ?_)
    refine .bind (ih h.tail c') ?_
    rintro ⟨us', c''⟩ hu
    exact .pure (Units32.cons hr hu)

theorem Ret.roundUnit {u a b : Int} : Ret I32 Q (roundUnit m u a b : Out σ Int) :=
  .bind .i32 fun _ h => .ite (fun _ => .i32) (fun _ => .pure h)

theorem Ret.roundArm {u p : Int} : Ret I32 Q (roundArm m u p : Out σ Int) := by
  unfold Fxd.roundArm
  split <;> first | exact .roundUnit | exact .panic

theorem Ret.roundHalfUp {fd : FixedDecimal} (h : Buf 9 fd.lsu) (a b t : Int) {f : Int} (hf : -128 ≤ f ∧ f < 128) (c : Int) :
    Ret Stored Q (roundHalfUp m fd a b t f c : Out σ FixedDecimal) := by
  unfold Fxd.roundHalfUp
  refine .bind .div9 fun i _ => .bind .mod9 fun p _ => ?_
  dsimp only
  refine .bind (P := fun q => Buf 9 q.1) (.ite (fun _ => .bind (.idx h.2) fun u hu => .bind .roundArm fun u hu =>
      .bind (P := fun q => I32 q.1) (.ite (fun _ => .bind .i32 fun u hu => .pure hu) fun _ => .pure hu) ?_) fun _ => .pure h) ?_
  · rintro ⟨u, c⟩ hu
    exact .bind (.upd h hu) fun l hl => .pure hl
  rintro ⟨l, i', c'⟩ hl
  dsimp only
  refine .bind (P := fun q => Buf 9 q.1) (.ite (fun _ => .bind (.slice hl.2) fun s hs => .bind (.carryLoop hs _) ?_)
    fun _ => .pure hl) ?_
  · rintro ⟨s', c''⟩ hs'
    exact .bind (.copyFromSlice hl hs') fun l hl =>
      .ite (fun _ => .bind (.upd hl .one) fun l hl => .pure hl) fun _ => .pure hl
  rintro ⟨l, a'⟩ hl
  refine .bind (.zeroRange hl) fun l hl => .pure ?_
  split_ifs
  · exact (hl.stored hf).setNeg
  · exact hl.stored hf

theorem Ret.round {d : FixedDecimal} (h : Stored d) (k : Int) : Ret Stored Q (d.round m k : Out σ FixedDecimal) := by
  have hw := wrap8 k
  unfold FixedDecimal.round
  refine .bind .intgUnits fun a _ => .bind .fracUnits fun b _ => .ite (fun _ => ?_) fun _ => .ite (fun _ => ?_) fun _ => ?_
  · refine .bind .getUnits fun c _ => .ite (fun _ => .pure ⟨h.len, h.units, hw⟩) fun _ => .bind .usz fun o _ =>
      .bind (.copyWithin h.buf) fun l hl => .pure (hl.stored hw)
  · refine .bind .isz fun i _ => .bind .isz fun i' _ => .ite (fun _ => .pure (.setZero h.len)) fun _ =>
      .bind (.copyWithin h.buf) fun l hl => .bind (.zeroRange hl) fun l hl => .roundHalfUp hl _ _ _ frac0 _
  · refine .bind .i8 fun f _ => .bind .getUnits fun c _ => .ite (fun _ => ?_) fun _ => ?_
    · refine .bind .mod9 fun p _ => .bind (P := fun _ => True) (.ite (fun _ => .bind .any fun v _ => .bind .usz fun n _ =>
        .pure trivial) fun _ => .pure trivial) ?_
      rintro ⟨c, n⟩ -
      exact .bind (.copyWithin h.buf) fun l hl => .bind (.zeroRange hl) fun l hl => .roundHalfUp hl _ _ _ hw _
    · refine .bind .dassert fun _ _ => .bind .mod9 fun p _ => .ite (fun _ => .bind .any fun v _ =>
        .bind (.copyWithin h.buf) fun l hl => .bind .usz fun t _ => .bind (.upd hl .zero) fun l hl => .bind .usz fun t _ =>
        .roundHalfUp hl _ _ _ hw _) fun _ => .roundHalfUp h.buf _ _ _ hw _

theorem Ret.roundTo {d res : FixedDecimal} (h : Stored d) (hr : res.lsu.length = 9) (k : Int) :
    Ret Stored Q (d.roundTo m res k : Out σ FixedDecimal) := by
  have hw := wrap8 k
  have hz := Spec.Stored.setZero hr
  unfold FixedDecimal.roundTo
  refine .bind .intgUnits fun a _ => .bind .fracUnits fun b _ => .ite (fun _ => ?_) fun _ => .ite (fun _ => ?_) fun _ => ?_
  · refine .bind .getUnits fun c _ => .ite (fun _ => .pure ⟨h.len, h.units, hw⟩) fun _ => .bind .usz fun o _ =>
      .bind (.slice h.units) fun s hs => .bind (.copyFromSlice hz.buf hs) fun l hl => .pure (hl.stored hw)
  · refine .bind .isz fun i _ => .bind .isz fun i' _ => .ite (fun _ => .pure (.setZero hz.len)) fun _ =>
      .bind (.slice h.units) fun s hs => .bind (.copyFromSlice hz.buf hs) fun l hl => .roundHalfUp hl _ _ _ frac0 _
  · refine .bind .i8 fun f _ => .bind .getUnits fun c _ => .ite (fun _ => ?_) fun _ => ?_
    · refine .bind .mod9 fun p _ => .bind (P := fun _ => True) (.ite (fun _ => .bind .any fun v _ => .bind .usz fun n _ =>
        .pure trivial) fun _ => .pure trivial) ?_
      rintro ⟨c, n⟩ -
      exact .bind (.slice h.units) fun s hs => .bind (.copyFromSlice hz.buf hs) fun l hl => .roundHalfUp hl _ _ _ hw _
    · refine .bind .dassert fun _ _ => .bind .mod9 fun p _ => .ite (fun _ => .bind .any fun v _ =>
        .bind .usz fun t _ => .bind (.slice h.units) fun s hs => .bind (.copyFromSlice hz.buf hs) fun l hl => .bind .usz fun t _ =>
        .roundHalfUp hl _ _ _ hw _) fun _ => .roundHalfUp h.buf _ _ _ hw _

/-! ## Addition and subtraction -/

theorem Ret.addCommon {l r : List Int} (n : Nat) (i j k : Int) {res : List Int} (h : Buf 9 res) {c : Int} (hc : I32 c) :
    Ret (fun p => Buf 9 p.1 ∧ I32 p.2) Q (addCommon m l r n i j k res c : Out σ (List Int × Int)) := by
  induction n generalizing i j k res c with
  | zero => exact ⟨h, hc⟩
  | succ n ih =>
    unfold Fxd.addCommon
    refine .bind .any fun a _ => .bind .any fun b _ => .bind .addWithCarry ?_
    rintro ⟨r0, c0⟩ ⟨h0, h1⟩
    exact .bind (.upd h h0) fun l hl => ih _ _ _ hl h1
theorem Ret.addExtra {l : List Int} (n : Nat) (i j : Int) {res : List Int} (h : Buf 9 res) {c : Int} (hc : I32 c) :
    Ret (fun p => Buf 9 p.1 ∧ I32 p.2) Q (addExtra m l n i j res c : Out σ (List Int × Int)) := by
  induction n generalizing i j res c with
  | zero => exact ⟨h, hc⟩
  | succ n ih =>
    unfold Fxd.addExtra
    refine .bind .any fun a _ => .bind .addWithCarry ?_
    rintro ⟨r0, c0⟩ ⟨h0, h1⟩
    exact .bind (.upd h h0) fun l hl => ih _ _ hl h1
theorem Ret.findTop {l : List Int} {f : Int} (n : Nat) : Ret (fun _ => True) Q (findTop l f n : Out σ Int) := by
  induction n with
  | zero => trivial
  | succ n ih => exact .bind .any fun v _ => .ite (fun _ => trivial) fun _ => ih

theorem max_i8 {a b : Int} (ha : -128 ≤ a ∧ a < 128) (hb : -128 ≤ b ∧ b < 128) : -128 ≤ max a b ∧ max a b < 128 := by omega

theorem Ret.addAbs {a b res : FixedDecimal} (ha : Stored a) (hb : Stored b) (hr : res.lsu.length = 9) :
    Ret Stored Stored (addAbs m a b res) := by
  have hz := Spec.Stored.setZero hr
  unfold Fxd.addAbs
  refine .bind .intgUnits fun li _ => .bind .fracUnits fun lf _ => .bind .intgUnits fun ri _ => .bind .fracUnits fun rf _ => ?_
  dsimp only
  refine .bind (P := fun p => Buf 9 p.1) (.ite (fun _ => .bind (.slice ha.units) fun s hs => .bind (.copyFromSlice hz.buf hs)
    fun l hl => .pure hl) fun _ => .ite (fun _ => .bind (.slice hb.units) fun s hs => .bind (.copyFromSlice hz.buf hs)
    fun l hl => .pure hl) fun _ => .pure hz.buf) ?_
  rintro ⟨l, i, j, k⟩ hl
  dsimp only
  refine .bind (.addCommon _ _ _ _ hl .zero) ?_
  rintro ⟨l, c⟩ ⟨hl, hc⟩
  dsimp only at hl hc ⊢
  refine .bind (P := fun p => Buf 9 p.1) (.ite (fun _ => .bind (.addExtra _ _ _ hl hc) ?_) fun _ =>
    .ite (fun _ => .bind (.addExtra _ _ _ hl hc) ?_) fun _ => .bind (.ite (fun _ => .upd hl hc) fun _ => .ok hl) fun l hl => .pure hl) ?_
  · rintro ⟨l, c⟩ ⟨hl, hc⟩
    exact .bind (.ite (fun _ => .upd hl hc) fun _ => .ok hl) fun l hl => .pure hl
  · rintro ⟨l, c⟩ ⟨hl, hc⟩
    exact .bind (.ite (fun _ => .upd hl hc) fun _ => .ok hl) fun l hl => .pure hl
  rintro ⟨l, c⟩ hl
  have hm := max_i8 ha.frac hb.frac
  exact .bind .fracUnits fun f _ => .bind (.findTop _) fun t _ => .ite (fun _ => .pure (Buf.stored hl hm)) fun _ =>
    .pure (Buf.stored hl hm)

theorem Ret.subLow {l : List Int} (c : Int) :
    Ret (fun p => Buf l.length p.1) Q (subLow m l c : Out σ (List Int × Int)) := by
  induction l generalizing c with
  | nil => exact ⟨rfl, Units32.nil⟩
  | cons u us ih =>
    unfold Fxd.subLow
    refine .bind .subWithBorrow ?_
    rintro ⟨r, c'⟩ ⟨hr, -⟩
    refine .bind (ih c') ?_
    rintro ⟨us', c''⟩ hu
    exact .pure ⟨congrArg (· + 1) hu.1, Units32.cons hr hu.2⟩
theorem Ret.subCommon {l r : List Int} (n : Nat) (i j k : Int) {res : List Int} (h : Buf 9 res) (c : Int) :
    Ret (fun p => Buf 9 p.1) Q (subCommon m l r n i j k res c : Out σ (List Int × Int)) := by
  induction n generalizing i j k res c with
  | zero => exact h
  | succ n ih =>
    unfold Fxd.subCommon
    refine .bind .any fun a _ => .bind .any fun b _ => .bind .subWithBorrow ?_
    rintro ⟨r0, c0⟩ ⟨h0, -⟩
    exact .bind (.upd h h0) fun l hl => ih _ _ _ hl _
theorem Ret.subExtraL {l : List Int} (n : Nat) (i j : Int) {res : List Int} (h : Buf 9 res) (c : Int) :
    Ret (fun p => Buf 9 p.1) Q (subExtraL m l n i j res c : Out σ (List Int × Int)) := by
  induction n generalizing i j res c with
  | zero => exact h
  | succ n ih =>
    unfold Fxd.subExtraL
    refine .bind .any fun a _ => .bind .subWithBorrow ?_
    rintro ⟨r0, c0⟩ ⟨h0, -⟩
    exact .bind (.upd h h0) fun l hl => ih _ _ hl _
theorem Ret.subExtraR {l : List Int} (n : Nat) (i j : Int) {res : List Int} (h : Buf 9 res) (c : Int) :
    Ret (fun p => Buf 9 p.1) Q (subExtraR m l n i j res c : Out σ (List Int × Int)) := by
  induction n generalizing i j res c with
  | zero => exact h
  | succ n ih =>
    unfold Fxd.subExtraR
    refine .bind .any fun a _ => .bind .subWithBorrow ?_
    rintro ⟨r0, c0⟩ ⟨h0, -⟩
    exact .bind (.upd h h0) fun l hl => ih _ _ hl _
theorem Ret.negLoop (n : Nat) (i : Int) {res : List Int} (h : Buf 9 res) (c : Int) :
    Ret (Buf 9) Q (negLoop m n i res c : Out σ (List Int)) := by
  induction n generalizing i res c with
  | zero => exact h
  | succ n ih =>
    unfold Fxd.negLoop
    refine .bind .any fun a _ => .bind .subWithBorrow ?_
    rintro ⟨r0, c0⟩ ⟨h0, -⟩
    exact .bind (.upd h h0) fun l hl => ih _ hl _

theorem Ret.subAbs {a b res : FixedDecimal} (ha : Stored a) (hb : Stored b) (hr : res.lsu.length = 9) :
    Ret (fun p => Stored p.1) Stored (subAbs m a b res) := by
  have hz := Spec.Stored.setZero hr
  unfold Fxd.subAbs
  refine .bind .intgUnits fun li _ => .bind .fracUnits fun lf _ => .bind .intgUnits fun ri _ => .bind .fracUnits fun rf _ => ?_
  dsimp only
  refine .bind (P := fun p => Buf 9 p.1) (.ite (fun _ => .bind (.slice ha.units) fun s hs => .bind (.copyFromSlice hz.buf hs)
    fun l hl => .pure hl) fun _ => .ite (fun _ => .bind (.subLow _) ?_) fun _ => .pure hz.buf) ?_
  · rintro ⟨low, c⟩ hl
    refine .pure ⟨?_, hl.2.append (hz.units.drop _)⟩
    have h1 : low.length = _ := hl.1
    dsimp only
    have h2 := hz.len
    rw [List.length_take] at h1
    rw [List.length_append, List.length_drop]
    omega
  rintro ⟨l, i, j, k, c⟩ hl
  dsimp only
  refine .bind (.subCommon _ _ _ _ hl _) ?_
  rintro ⟨l, c⟩ hl
  dsimp only at hl ⊢
  refine .bind (P := fun p => Buf 9 p.1) (.ite (fun _ => .bind (.subExtraL _ _ _ hl _) ?_) fun _ =>
    .ite (fun _ => .bind (.subExtraR _ _ _ hl _) ?_) fun _ => .pure hl) ?_
  · rintro ⟨l, c⟩ hl
    exact .pure hl
  · rintro ⟨l, c⟩ hl
    exact .pure hl
  rintro ⟨l, c, k⟩ hl
  have hm := max_i8 ha.frac hb.frac
  refine .bind (.ite (fun _ => .negLoop _ _ hl _) fun _ => .ok hl) fun l hl => ?_
  exact .bind .fracUnits fun f _ => .bind (.findTop _) fun t _ => .ite (fun _ => .pure (Buf.stored hl hm)) fun _ =>
    .pure (Buf.stored hl hm)

theorem signed_stored {c : Prop} [Decidable c] {d : FixedDecimal} (h : Stored d) : Stored (if c then d.setNegAndCheckZero else d) := by
  by_cases hc : c
  · rw [if_pos hc]; exact h.setNegAndCheckZero
  · rw [if_neg hc]; exact h

theorem Ret.addTo {a b res : FixedDecimal} (ha : Stored a) (hb : Stored b) (hr : res.lsu.length = 9) :
    Ret Stored Stored (a.addTo m b res) := by
  unfold FixedDecimal.addTo
  refine .ite (fun _ => .ok hb) fun _ => .ite (fun _ => .ok ha) fun _ => .ite (fun _ => .bind (.addAbs ha hb hr) fun r hr =>
    .pure (signed_stored hr)) fun _ => .bind (.subAbs ha hb hr) ?_
  rintro ⟨r, s⟩ hr
  exact .pure (signed_stored hr)
theorem Ret.subTo {a b res : FixedDecimal} (ha : Stored a) (hb : Stored b) (hr : res.lsu.length = 9) :
    Ret Stored Stored (a.subTo m b res) := by
  unfold FixedDecimal.subTo
  refine .ite (fun _ => .ite (fun _ => .ok hb.setPos) fun _ => .ok hb.setNegAndCheckZero) fun _ => .ite (fun _ => .ok ha)
    fun _ => .ite (fun _ => .bind (.addAbs ha hb hr) fun r hr => .pure (signed_stored hr)) fun _ => .bind (.subAbs ha hb hr) ?_
  rintro ⟨r, s⟩ hr
  exact .pure (signed_stored hr)

/-! ## Multiplication -/

theorem Ret.mulInner {rv i s : Int} (l : List Int) (j k c : Int) {res : List Int} (h : Buf 9 res) :
    Ret (fun p => Buf 9 p.2.2) Q (mulInner m rv i s l j k c res : Out σ (Int × Int × List Int)) := by
  induction l generalizing j k c res with
  | nil => exact h
  | cons v vs ih =>
    unfold Fxd.mulInner
    exact .ite (fun _ => ih _ _ _ h) fun _ => .ite (fun _ => .bind .i64 fun v _ => .ite (fun _ => ih _ _ _ h) fun _ => ih _ _ _ h)
      fun _ => .bind .i64 fun p _ => .bind .any fun o _ => .bind .i64 fun s _ => .bind .i64 fun v _ => .bind .i64 fun w _ =>
      .bind .i64 fun d _ => .bind (.upd h (.wrap _)) fun l hl => ih _ _ _ hl
theorem Ret.mulOuter {l : List Int} {s : Int} {back : List Int → σ} (hq : ∀ l, Buf 9 l → Q (back l)) (r : List Int) (i : Int)
    {res : List Int} (h : Buf 9 res) : Ret (Buf 9) Q (mulOuter m l s back r i res) := by
  induction r generalizing i res with
  | nil => exact h
  | cons v vs ih =>
    unfold Fxd.mulOuter
    refine .bind (.mulInner _ _ _ _ h) ?_
    rintro ⟨k, c, res⟩ h
    exact .bind .dassert fun _ _ => .ite (fun _ => .bind (.upd h (.wrap _)) fun l hl => ih _ hl) fun _ =>
      .ite (fun _ => .err (hq _ h)) fun _ => ih _ h

theorem min_i8 {a b : Int} (ha : -128 ≤ a ∧ a < 128) (hb : -128 ≤ b ∧ b < 128) : -128 ≤ min a b ∧ min a b < 128 := by omega

theorem Ret.mulUnits {l r : List Int} {n : Int} : Ret (fun _ => True) Q (Fxd.mulUnits l n r : Out σ (List Int)) := by
  cases r
  · trivial
  · exact .sliceAny
theorem Ret.mulAbs {a b res : FixedDecimal} (hr : res.lsu.length = 9) : Ret Stored Stored (mulAbs m a b res) := by
  have hz := Spec.Stored.setZero hr
  unfold Fxd.mulAbs
  refine .bind .i8 fun d _ => .bind .getUnits fun u _ => .bind .i8 fun f hf => .bind .getUnits fun v _ => .ite (fun _ => .err hz)
    fun _ => .bind .intgUnits fun li _ => .bind .fracUnits fun lf _ => .bind .intgUnits fun ri _ => .bind .fracUnits fun rf _ =>
    .bind .usz fun s _ => ?_
  exact .bind .sliceAny fun _ _ => .bind .mulUnits fun _ _ => .bind (.mulOuter (fun l hl => hl.stored hz.frac) _ _ hz.buf)
    fun l hl => .pure (hl.stored (min_i8 hf (wrap8 _)))
theorem Ret.mulTo {a b res : FixedDecimal} (hr : res.lsu.length = 9) : Ret Stored Stored (a.mulTo m b res) := by
  unfold FixedDecimal.mulTo
  exact .ite (fun _ => .ok (.setZero hr)) fun _ => .bind (.mulAbs hr) fun r hr => .pure (signed_stored hr)

/-! ## Division and remainder -/

theorem Ret.findNonZero {l : List Int} (n : Nat) : Ret (fun _ => True) Q (findNonZero l n : Out σ Int) := by
  induction n with
  | zero => trivial
  | succ n ih => exact .bind .any fun v _ => .ite (fun _ => trivial) fun _ => ih
theorem Ret.normLoop {f : Int} (l : List Int) (c : Int) :
    Ret (fun p => Units32 p.1) Q (normLoop m f l c : Out σ (List Int × Int)) := by
  induction l generalizing c with
  | nil => exact Units32.nil
  | cons v vs ih =>
    unfold Fxd.normLoop
    refine .bind .i64 fun p _ => .bind .i64 fun u _ => .bind .i64 fun w _ => .bind .i64 fun d _ => .bind (ih _) ?_
    rintro ⟨r, c⟩ hr
    exact .pure (Units32.cons (.wrap _) hr)
theorem Ret.shortDivLoop {l : List Int} {d : Int} (n : Nat) (i r : Int) {res : List Int} (h : Buf 9 res) :
    Ret (Buf 9) Q (shortDivLoop m l d n i r res : Out σ (List Int)) := by
  induction n generalizing i r res with
  | zero => exact h
  | succ n ih =>
    unfold Fxd.shortDivLoop
    exact .bind .i64 fun p _ => .bind (P := fun _ => True) (.ite (fun _ => .bind .any fun v _ => .i64) fun _ => trivial) fun u _ =>
      .bind .idiv fun q _ => .bind .i64 fun w _ => .bind .i64 fun r _ => .bind (.upd h (.wrap _)) fun l hl => ih _ _ hl
theorem Ret.qhatLoop {d0 d1 u2 : Int} (n : Nat) (q r : Int) : Ret (fun _ => True) Q (qhatLoop m d0 d1 u2 n q r : Out σ Int) := by
  induction n generalizing q r with
  | zero => trivial
  | succ n ih =>
    unfold Fxd.qhatLoop
    exact .bind .i64 fun _ _ => .bind .i64 fun _ _ => .bind .i64 fun _ _ => .ite (fun _ => .bind .i64 fun _ _ => .bind .i64 fun _ _ =>
      ih _ _) fun _ => trivial
theorem Ret.guessQ {l : List Int} {i d0 d1 : Int} : Ret (fun _ => True) Q (guessQ m l i d0 d1 : Out σ Int) := by
  unfold Fxd.guessQ
  exact .bind .any fun _ _ => .bind (P := fun _ => True) (.ite (fun _ => .any) fun _ => trivial) fun _ _ => .bind .i64 fun _ _ =>
    .bind .i64 fun _ _ => .bind .idiv fun _ _ => .bind .i64 fun _ _ => .bind .i64 fun _ _ => .bind .dassert fun _ _ =>
    .bind (P := fun _ => True) (.ite (fun _ => .any) fun _ => trivial) fun _ _ => .qhatLoop _ _ _
theorem Ret.mulSub {q : Int} {b2 : List Int} {w : Nat} (n : Nat) (k i : Int) {b1 : List Int} (h : Buf w b1) (c b : Int) :
    Ret (fun p => Buf w p.1) Q (mulSub m q b2 n k i b1 c b : Out σ (List Int × Int × Int)) := by
  induction n generalizing k i b1 c b with
  | zero => exact h
  | succ n ih =>
    unfold Fxd.mulSub
    refine .bind .any fun _ _ => .bind .i64 fun _ _ => .bind .i64 fun _ _ => .bind .i64 fun _ _ => .bind .i64 fun _ _ =>
      .ite (fun _ => .bind .subWithBorrow ?_) fun _ => .bind .any fun _ _ => .bind .subWithBorrow ?_
    · rintro ⟨s, b⟩ -
      exact ih _ _ h _ _
    · rintro ⟨s, b⟩ ⟨hs, -⟩
      exact .bind (.upd h hs) fun l hl => ih _ _ hl _ _
theorem Ret.divAddBack {j : Int} {w : Nat} (n : Nat) (i : Int) {b1 : List Int} (h : Buf w b1) (b : Int) :
    Ret (Buf w) Q (divAddBack m j n i b1 b : Out σ (List Int)) := by
  induction n generalizing i b1 b with
  | zero => exact h
  | succ n ih =>
    unfold Fxd.divAddBack
    refine .bind .any fun _ _ => .bind .subWithBorrow ?_
    rintro ⟨s, b⟩ ⟨hs, -⟩
    exact .bind (.upd h hs) fun l hl => ih _ hl _
theorem Ret.longDivLoop {b2 : List Int} {r d0 d1 : Int} {w : Nat} (n : Nat) (i : Int) {b1 res : List Int} (h1 : Buf w b1) (h : Buf 9 res) :
    Ret (Buf 9) Q (longDivLoop m b2 r d0 d1 n i b1 res : Out σ (List Int)) := by
  induction n generalizing i b1 res with
  | zero => exact h
  | succ n ih =>
    unfold Fxd.longDivLoop
    refine .bind .guessQ fun q _ => .bind (.mulSub _ _ _ h1 _ _) ?_
    rintro ⟨b1, c, b⟩ h1
    exact .bind .any fun _ _ => .bind .i32 fun _ _ => .bind .i32 fun _ _ => .ite (fun _ => .bind .i64 fun _ _ =>
      .bind (.divAddBack _ _ h1 _) fun b1 h1 => .bind (.upd h (.wrap _)) fun l hl => ih _ h1 hl) fun _ =>
      .bind (.upd h1 .zero) fun b1 h1 => .bind (.upd h (.wrap _)) fun l hl => ih _ h1 hl

theorem Ret.divAbs {a b res : FixedDecimal} (ha : Stored a) (hb : Stored b) (hr : res.lsu.length = 9) (k : Int) :
    Ret Stored Stored (divAbs m a b res k) := by
  have hz := Spec.Stored.setZero hr
  unfold Fxd.divAbs
  refine .bind .getUnits fun li _ => .bind .getUnits fun lf _ => .bind .getUnits fun ri _ => .bind .getUnits fun rf _ =>
    .bind (.findNonZero _) fun rn _ => .ite (fun _ => .err hz) fun _ => .bind (.findNonZero _) fun ln _ => .ite (fun _ => .ok hz)
    fun _ => .bind .any fun rt _ => .bind .any fun lt _ => .bind .isz fun k _ => .bind .isz fun s _ => .bind .getUnits fun fu _ =>
    .bind (.slice ha.units) fun ls hls => .bind (.slice hb.units) fun rs hrs => ?_
  dsimp only
  refine .bind (P := fun _ => True) (.ite (fun _ => .bind .getUnits fun _ _ => .ite (fun _ => .err hz) fun _ => trivial)
    fun _ => .bind .getUnits fun _ _ => .pure trivial) ?_
  rintro ⟨i, u, f, st⟩ -
  dsimp only
  refine .ite (fun _ => .bind .any fun d _ => .bind (P := fun _ => True) (.ite (fun _ => .any) fun _ => trivial) fun _ _ =>
    .bind (.shortDivLoop _ _ _ hz.buf) fun l hl => .pure (hl.stored (wrap8 _))) fun _ => .bind .idiv fun nf _ => ?_
  refine .bind (P := fun p => Buf 18 p.1) (.ite (fun _ => .bind (.copyFromSlice buf_zero18 hls) fun b1 h1 =>
    .bind (.copyFromSlice buf_zero hrs) fun b2 h2 => .pure h1) fun _ => .bind (.normLoop _ _) ?_) ?_
  · rintro ⟨l, c⟩ hl
    refine .bind (.copyFromSlice buf_zero18 hl) fun b1 h1 => .bind (.ite (fun _ => .upd h1 (.wrap _)) fun _ => .ok h1)
      fun b1 h1 => .bind (.normLoop _ _) ?_
    rintro ⟨r, c⟩ hr
    exact .bind (.copyFromSlice buf_zero hr) fun b2 h2 => .bind .dassert fun _ _ => .pure h1
  rintro ⟨b1, b2⟩ h1
  exact .bind .any fun _ _ => .bind .any fun _ _ => .bind (.longDivLoop _ _ h1 hz.buf) fun l hl => .pure (hl.stored (wrap8 _))

theorem Ret.divTo {a b res : FixedDecimal} (ha : Stored a) (hb : Stored b) (hr : res.lsu.length = 9) (k : Int) :
    Ret Stored Stored (a.divTo m b res k) := by
  unfold FixedDecimal.divTo
  exact .bind (.divAbs ha hb hr _) fun r hr => .pure (signed_stored hr)

theorem Ret.shortRemLoop {l : List Int} {d : Int} (n : Nat) (i r : Int) : Ret (fun _ => True) Q (shortRemLoop m l d n i r : Out σ Int) := by
  induction n generalizing i r with
  | zero => trivial
  | succ n ih =>
    unfold Fxd.shortRemLoop
    exact .bind .i64 fun _ _ => .bind .any fun _ _ => .bind .i64 fun _ _ => .bind .idiv fun _ _ => .bind .i64 fun _ _ =>
      .bind .i64 fun _ _ => ih _ _
theorem Ret.remCopyLoop {l : List Int} (hl : Units32 l) (n : Nat) {res : List Int} (h : Buf 9 res) (z : Int) :
    Ret (fun p => Buf 9 p.1) Q (remCopyLoop l n res z : Out σ (List Int × Int)) := by
  induction n generalizing res z with
  | zero => exact h
  | succ n ih =>
    unfold Fxd.remCopyLoop
    exact .bind (.idx hl) fun v hv => .bind (.upd h hv) fun r hr => ih hr _
theorem Ret.longRemLoop {b2 : List Int} {d0 d1 : Int} (n : Nat) (i : Int) (b1 : List Int) :
    Ret (fun _ => True) Q (longRemLoop m b2 d0 d1 n i b1 : Out σ (List Int)) := by
  have hms : ∀ (q : Int) (s1 s2 : List Int) (c b : Int), Ret (fun _ => True) Q (mulSubSeg m q s1 s2 c b : Out σ (List Int × Int × Int)) := by
    intro q s1
    induction s1 with
    | nil => intro s2 c b; unfold Fxd.mulSubSeg; trivial
    | cons x xs ih =>
      intro s2 c b
      cases s2 with
      | nil => unfold Fxd.mulSubSeg; trivial
      | cons y ys =>
        unfold Fxd.mulSubSeg
        refine .bind .i64 fun _ _ => .bind .i64 fun _ _ => .bind .i64 fun _ _ => .bind .i64 fun _ _ => .bind .subWithBorrow ?_
        rintro ⟨s, b⟩ -
        refine .bind (ih _ _ _) ?_
        rintro ⟨_, _, _⟩ -
        trivial
  have hng : ∀ (l : List Int) (b : Int), Ret (fun _ => True) Q (negSeg m l b : Out σ (List Int)) := by
    intro l
    induction l with
    | nil => intro b; trivial
    | cons x xs ih =>
      intro b
      unfold Fxd.negSeg
      refine .bind .subWithBorrow ?_
      rintro ⟨s, b⟩ -
      exact .bind (ih _) fun _ _ => trivial
  induction n generalizing i b1 with
  | zero => trivial
  | succ n ih =>
    unfold Fxd.longRemLoop
    refine .bind .guessQ fun q _ => .bind .sliceAny fun s _ => .bind (hms _ _ _ _ _) ?_
    rintro ⟨s, c, b⟩ -
    exact .bind .copyAny fun b1 _ => .bind .any fun _ _ => .bind .i32 fun _ _ => .bind .i32 fun _ _ => .ite
      (fun _ => .bind .sliceAny fun _ _ => .bind (hng _ _) fun _ _ => .bind .copyAny fun _ _ => .bind (.updAny) fun _ _ => ih _ _)
      fun _ => .bind (.updAny) fun _ _ => ih _ _
theorem Ret.unnormLoop {b1 : List Int} {f : Int} (n : Nat) (r z : Int) {res : List Int} (h : Buf 9 res) :
    Ret (fun p => Buf 9 p.1) Q (unnormLoop m b1 f n r z res : Out σ (List Int × Int × Int)) := by
  induction n generalizing r z res with
  | zero => exact h
  | succ n ih =>
    unfold Fxd.unnormLoop
    exact .bind .i64 fun _ _ => .bind .any fun _ _ => .bind .i64 fun _ _ => .ite (fun _ => ih _ _ h) fun _ => .bind .idiv fun _ _ =>
      .bind .i64 fun _ _ => .bind .i64 fun _ _ => .ite (fun _ => .bind (.upd h (.wrap _)) fun l hl => ih _ _ hl) fun _ => ih _ _ h
theorem Ret.remFinish {l : List Int} (h : Buf 9 l) (z : Int) {f : Int} (hf : -128 ≤ f ∧ f < 128) (u : Int) :
    Ret Stored Q (remFinish m l z f u : Out σ FixedDecimal) := by
  unfold Fxd.remFinish
  exact .ite (fun _ => .bind .i8 fun _ _ => .bind .i8 fun _ _ => .bind .i8 fun _ _ => .bind .any fun _ _ => .bind .i8 fun _ _ =>
    .pure (h.stored hf)) fun _ => .pure (h.stored hf)

theorem Ret.cmpAbsLsu {a b c d : Int} {l r : List Int} : Ret (fun _ => True) Q (cmpAbsLsu a b l c d r : Out σ Ordering) := by
  have h1 : ∀ (l : List Int) (o : Int) (h : Ordering) (n : Nat) (i : Int), Ret (fun _ => True) Q (cmpExtra l o h n i : Out σ _) := by
    intro l o h n
    induction n with
    | zero => intro i; trivial
    | succ n ih =>
      intro i; unfold Fxd.cmpExtra
      exact .ite (fun _ => .bind .any fun _ _ => .ite (fun _ => trivial) fun _ => ih _) fun _ => trivial
  have h2 : ∀ (l r : List Int) (n : Nat) (i j : Int), Ret (fun _ => True) Q (cmpCommon l r n i j : Out σ _) := by
    intro l r n
    induction n with
    | zero => intro i j; trivial
    | succ n ih =>
      intro i j
      unfold Fxd.cmpCommon
      exact .bind .any fun _ _ => .bind .any fun _ _ => .ite (fun _ => trivial) fun _ => .ite (fun _ => trivial) fun _ => ih _ _
  have h3 : ∀ (l : List Int) (h : Ordering) (n : Nat), Ret (fun _ => True) Q (cmpTail l h n : Out σ _) := by
    intro l h n
    induction n with
    | zero => trivial
    | succ n ih => unfold Fxd.cmpTail; exact .bind .any fun _ _ => .ite (fun _ => trivial) fun _ => ih
  unfold Fxd.cmpAbsLsu
  refine .bind (h1 _ _ _ _ _) fun o _ => ?_
  rcases o with o | ⟨_, _⟩
  · trivial
  refine .bind (h1 _ _ _ _ _) fun o _ => ?_
  rcases o with o | ⟨_, _⟩
  · trivial
  refine .bind (h2 _ _ _ _ _) fun o _ => ?_
  rcases o with o | ⟨_, _⟩
  · trivial
  refine .bind (h3 _ _ _) fun o _ => ?_
  cases o with
  | some o => trivial
  | none =>
    refine .bind (h3 _ _ _) fun o _ => ?_
    cases o <;> trivial

theorem Ret.remAbs {a b res : FixedDecimal} (ha : Stored a) (hb : Stored b) (hr : res.lsu.length = 9) :
    Ret Stored Stored (remAbs m a b res) := by
  have hz := Spec.Stored.setZero hr
  have hm := max_i8 ha.frac hb.frac
  unfold Fxd.remAbs
  refine .bind .getUnits fun li _ => .bind .getUnits fun lf _ => .bind .getUnits fun ri _ => .bind .getUnits fun rf _ =>
    .bind (.findNonZero _) fun rn _ => .ite (fun _ => .err hz) fun _ => .bind (.findNonZero _) fun ln _ => .ite (fun _ => .ok hz)
    fun _ => .bind .cmpAbsLsu fun o _ => ?_
  cases o with
  | lt =>
    exact .ite (fun _ => .bind (.slice ha.units) fun s hs => .bind (.copyFromSlice hz.buf hs) fun l hl => .pure (hl.stored hb.frac))
      fun _ => .bind (.slice ha.units) fun s hs => .bind (.copyFromSlice hz.buf hs) fun l hl => .pure (hl.stored hm)
  | eq => exact .pure hz
  | gt =>
    dsimp only
    refine .bind .getUnits fun fu _ => .bind (.slice ha.units) fun ls hls => .bind (.slice hb.units) fun rs hrs => .ite (fun _ => ?_)
      fun _ => ?_
    · refine .bind .any fun d _ => .bind (.copyFromSlice buf_zero18 hls) fun buf hbuf => .bind (P := fun _ => True)
        (.ite (fun _ => .any) fun _ => trivial) fun _ _ => .bind (.shortRemLoop _ _ _) fun r _ => .bind (P := fun p => Buf 9 p.1)
        (.ite (fun _ => .bind (.upd hz.buf (.wrap _)) fun l hl => .pure hl) fun _ => .pure hz.buf) ?_
      rintro ⟨l, z⟩ hl
      refine .bind (.remCopyLoop hbuf.2 _ hl _) ?_
      rintro ⟨l, z⟩ hl
      exact .remFinish hl _ hm _
    · refine .bind .any fun t _ => .bind .idiv fun nf _ => .bind (P := fun _ => True) (.ite (fun _ => .bind .copyAny fun _ _ =>
        .bind .copyAny fun _ _ => .pure trivial) fun _ => .bind (.normLoop _ _) ?_) ?_
      · rintro ⟨l, c⟩ -
        refine .bind .copyAny fun _ _ => .bind (P := fun _ => True) (.ite (fun _ => .updAny) fun _ => trivial) fun _ _ =>
          .bind (.normLoop _ _) ?_
        rintro ⟨r, c⟩ -
        exact .bind .copyAny fun _ _ => .bind .dassert fun _ _ => .pure trivial
      rintro ⟨b1, b2⟩ -
      refine .bind .any fun _ _ => .bind .any fun _ _ => .bind .sliceAny fun _ _ => .bind (.longRemLoop _ _ _) fun b1 _ => ?_
      have tl : ∀ p : List Int × Int × Int, Buf 9 p.1 → Ret Stored Stored
          (Fxd.dassert m (p.2.1 == 0) >>= fun _ => Fxd.remFinish m p.1 p.2.2 (max a.frac b.frac) fu) :=
        fun p hp => .bind .dassert fun _ _ => .remFinish hp _ hm _
      cases m
      · exact .bind .any fun _ _ => .bind .dassert fun _ _ => .bind (.unnormLoop _ _ _ hz.buf) tl
      · exact .bind (P := fun _ => True) trivial fun _ _ => .bind (.unnormLoop _ _ _ hz.buf) tl
theorem Ret.remTo {a b res : FixedDecimal} (ha : Stored a) (hb : Stored b) (hr : res.lsu.length = 9) :
    Ret Stored Stored (a.remTo m b res) := by
  unfold FixedDecimal.remTo
  exact .bind (.remAbs ha hb hr) fun r hr => .pure (signed_stored hr)

/-! ## Integers -/

theorem Ret.fromU64Loop (n : Nat) (s i : Int) {l : List Int} (h : Buf 9 l) :
    Ret (fun p => Buf 9 p.2) Q (FixedDecimal.fromU64Loop n s i l : Out σ (Int × List Int)) := by
  induction n generalizing s i l with
  | zero => trivial
  | succ n ih =>
    unfold FixedDecimal.fromU64Loop
    exact .ite (fun _ => .ok h) fun _ => .bind (.upd h (.wrap _)) fun l hl => ih _ _ hl
theorem Ret.fromU64 (s : Int) : Ret Stored Q (FixedDecimal.fromU64 s : Out σ FixedDecimal) := by
  unfold FixedDecimal.fromU64
  refine .bind (.fromU64Loop _ _ _ buf_zero) ?_
  rintro ⟨i, l⟩ hl
  exact .pure (Buf.stored hl frac0)
theorem Ret.fromI64 (s : Int) : Ret Stored Q (FixedDecimal.fromI64 m s : Out σ FixedDecimal) := by
  have hm : Stored .MIN_I64 := by
    refine ⟨rfl, ?_, frac0⟩
    intro u hu
    simp only [FixedDecimal.MIN_I64, List.mem_cons, List.not_mem_nil, or_false] at hu
    rcases hu with rfl | rfl | rfl | rfl | rfl | rfl | rfl | rfl | rfl <;> constructor <;> norm_num
  unfold FixedDecimal.fromI64
  exact .ite (fun _ => .pure hm) fun _ => .ite (fun _ => .bind .i64 fun _ _ => .bind (.fromU64 _) fun d hd => .pure hd.setNeg)
    fun _ => .fromU64 _

/-! ## Parsing -/

theorem Ret.intgLoop {last : Int} (bs : List Nat) (i o c u : Int) (ho : I32 o) {l : List Int} (h : Buf 9 l) :
    Ret (fun p => I32 p.2.1 ∧ Buf 9 p.2.2.2.2) Q (intgLoop m last bs i o c u l : Out σ (List Nat × Int × Int × Int × List Int)) := by
  induction bs generalizing i o c u l with
  | nil => trivial
  | cons b bs ih =>
    unfold Fxd.intgLoop
    exact .ite (fun _ => ih _ _ _ _ ho h) fun _ => .bind .i32 fun _ _ => .bind .i32 fun _ _ => .bind .i32 fun o ho => .bind .i8 fun c _ =>
      .ite (fun _ => .pure ⟨ho, h⟩) fun _ => .ite (fun _ => .pure ⟨ho, h⟩) fun _ => .bind .mod9 fun _ _ => .ite
      (fun _ => ih _ _ _ _ ho h) fun _ => .bind (.upd h ho) fun l hl => ih _ _ _ _ .zero hl
theorem Ret.zeroUnitsLoop (n : Nat) (c u : Int) {l : List Int} (h : Buf 9 l) :
    Ret (fun p => Buf 9 p.2) Q (zeroUnitsLoop m n c u l : Out σ (Int × List Int)) := by
  induction n generalizing c u l with
  | zero => trivial
  | succ n ih =>
    unfold Fxd.zeroUnitsLoop
    exact .ite (fun _ => .bind (.upd h .zero) fun l hl => .bind .i8 fun _ _ => ih _ _ hl) fun _ => .ok h
theorem Ret.headZeroLoop (n : Nat) (c u : Int) {l : List Int} (h : Buf 9 l) :
    Ret (fun p => Buf 9 p.2.2) Q (headZeroLoop m n c u l : Out σ (Int × Int × List Int)) := by
  induction n generalizing c u l with
  | zero => trivial
  | succ n ih =>
    unfold Fxd.headZeroLoop
    exact .ite (fun _ => .bind (.upd h .zero) fun l hl => .bind .i8 fun _ _ => ih _ _ hl) fun _ => .ok h
theorem Ret.fracLoop {last : Int} (bs : List Nat) (i o c u : Int) {l : List Int} (h : Buf 9 l) :
    Ret (fun p => I32 p.1 ∧ Buf 9 p.2.2) Q (fracLoop m last bs i o c u l : Out σ (Int × Int × List Int)) := by
  induction bs generalizing i o c u l with
  | nil => trivial
  | cons b bs ih =>
    unfold Fxd.fracLoop
    exact .ite (fun _ => ih _ _ _ _ h) fun _ => .bind .i8 fun _ _ => .bind .any fun _ _ => .bind .i32 fun _ _ => .bind .i32 fun _ _ =>
      .bind .i32 fun o ho => .ite (fun _ => .pure ⟨ho, h⟩) fun _ => .ite (fun _ => ih _ _ _ _ h) fun _ =>
      .bind (.upd h ho) fun l hl => ih _ _ _ _ hl

theorem Ret.writeDigits {d : FixedDecimal} (h : Buf 9 d.lsu) (bs : List Nat) (st : Scan) {f : Int} (hf : -128 ≤ f ∧ f < 128)
    (n z : Int) : Ret Stored Q (writeDigits m d bs st f n z : Out σ FixedDecimal) := by
  unfold Fxd.writeDigits
  refine .bind .i8 fun di _ => .bind .getUnits fun iu _ => .bind .getUnits fun fu _ => .bind .usz fun t _ => ?_
  dsimp only
  refine .bind (P := fun p => Buf 9 p.1) (.ite (fun _ => .bind (.intgLoop _ _ _ _ _ .zero h) ?_) fun _ => .pure h) ?_
  · rintro ⟨r, o, c, u, l⟩ ⟨-, hl⟩
    refine .bind .mod9 fun _ _ => .bind .any fun _ _ => .bind .i32 fun v hv => .bind (.upd hl hv) fun l hl => .bind .i8 fun _ _ =>
      .bind (.zeroUnitsLoop _ _ _ hl) ?_
    rintro ⟨u, l⟩ hl
    exact .pure hl
  rintro ⟨l, r, o, u⟩ hl
  dsimp only at hl ⊢
  refine .bind (P := Buf 9) (.ite (fun _ => .bind (.headZeroLoop _ _ _ hl) ?_) fun _ => .pure hl) fun l hl => .pure ?_
  · rintro ⟨z, u, l⟩ hl
    refine .bind .i8 fun _ _ => .bind (.fracLoop _ _ _ _ _ hl) ?_
    rintro ⟨o, u, l⟩ ⟨ho, hl⟩
    exact .upd hl ho
  · split_ifs
    · exact (hl.stored hf).setNeg
    · exact hl.stored hf

theorem Ret.fromBytesStr {d : FixedDecimal} (h : Stored d) (bs : List Nat) (r : Bool) :
    Ret Stored Stored (d.fromBytesStr m bs r) := by
  have hs : Stored (if r then d.setZero else d) := by
    cases r
    · exact h
    · exact .setZero h.len
  have hsc : ∀ (bs : List Nat) (i : Int) (st : Scan), Ret (fun _ => True) Stored (scanLoop m bs i st) := by
    intro bs
    induction bs with
    | nil => intro i st; trivial
    | cons b bs ih =>
      intro i st
      unfold Fxd.scanLoop
      exact .ite (fun _ => .bind .i8 fun _ _ => ih _ _) fun _ => .ite (fun _ => ih _ _) fun _ => .ite (fun _ => ih _ _) fun _ =>
        .ite (fun _ => ih _ _) fun _ => trivial
  have hel : ∀ (s : FixedDecimal), Stored s → ∀ (bs : List Nat) (e : Int), Ret (fun _ => True) Stored (expLoop m s bs e) := by
    intro s hs bs
    induction bs with
    | nil => intro e; trivial
    | cons b bs ih =>
      intro e
      unfold Fxd.expLoop
      exact .ite (fun _ => .err hs) fun _ => .bind .i32 fun _ _ => .bind .i32 fun _ _ => .bind .i32 fun _ _ => ih _
  have hex : ∀ (s : FixedDecimal), Stored s → ∀ rest : List Nat, Ret (fun _ => True) Stored (parseExp m s rest) := by
    intro s hs rest
    unfold Fxd.parseExp
    split
    · trivial
    · refine .ite (fun _ => .err hs) fun _ => ?_
      split
      · exact .err hs
      · exact .ite (fun _ => .err hs) fun _ => .bind (hel s hs _ _) fun _ _ => .ite (fun _ => .err hs) fun _ => .ite
          (fun _ => .err hs) fun _ => .ite (fun _ => .mono .i32 fun _ _ => trivial) fun _ => trivial
  have hap : ∀ x y z : Int, Ret (fun p => -128 ≤ p.1 ∧ p.1 < 128) Stored (applyExp m x y z) := by
    intro x y z
    unfold Fxd.applyExp
    exact .bind .i8 fun f hf => .ite (fun _ => .pure hf) fun _ => .ite (fun _ => .ite (fun _ => .pure hf) fun _ => .bind .i8 fun _ _ =>
      .pure hf) fun _ => .bind .i8 fun _ _ => .pure frac0
  unfold FixedDecimal.fromBytesStr
  refine .ite (fun _ => .err hs) fun _ => .bind (hsc _ _ _) ?_
  rintro ⟨st, rest⟩ -
  refine .ite (fun _ => .err hs) fun _ => .bind (hex _ hs _) fun e _ => .bind (hap _ _ _) ?_
  rintro ⟨f, n, z⟩ hf
  exact .ite (fun _ => .err hs) fun _ => .writeDigits hs.buf _ _ hf _ _

end Fxd
