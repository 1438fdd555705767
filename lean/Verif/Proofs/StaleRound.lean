import Verif.Proofs.Stale
/-!
# Rounding does not read stale units, and leaves them where they are
-/

namespace Fxd
open Spec
variable {σ : Type} {m : Mode}

/-- Two runs that end the same way, with related values. -/
inductive Rel {σ α β : Type} (R : α → β → Prop) : Out σ α → Out σ β → Prop
  | ok {a : α} {b : β} : R a b → Rel R (.ok a) (.ok b)
  | err (e : Error) (s : σ) : Rel R (.err e s) (.err e s)
  | panic (p : Panic) : Rel R (.panic p) (.panic p)

namespace Rel
variable {α β γ δ : Type}

theorem bind {R : α → β → Prop} {S : γ → δ → Prop} {x : Out σ α} {y : Out σ β} {f : α → Out σ γ} {g : β → Out σ δ}
    (h : Rel R x y) (hf : ∀ a b, R a b → Rel S (f a) (g b)) : Rel S (x >>= f) (y >>= g) := by
  cases h with
  | ok h => exact hf _ _ h
  | err e s => exact .err e s
  | panic p => exact .panic p

theorem same {S : γ → δ → Prop} (x : Out σ α) {f : α → Out σ γ} {g : α → Out σ δ} (hf : ∀ a, x = .ok a → Rel S (f a) (g a)) :
    Rel S (x >>= f) (x >>= g) := by
  cases x with
  | ok a => exact hf a rfl
  | err e s => exact .err e s
  | panic p => exact .panic p

theorem of_eq {S : α → α → Prop} {x y : Out σ α} (h : x = y) (hs : ∀ a, x = .ok a → S a a) : Rel S x y := by
  subst h
  cases x with
  | ok a => exact .ok (hs a rfl)
  | err e s => exact .err e s
  | panic p => exact .panic p

theorem mono {R S : α → β → Prop} {x : Out σ α} {y : Out σ β} (h : Rel R x y) (hs : ∀ a b, R a b → S a b) : Rel S x y := by
  cases h with
  | ok h => exact .ok (hs _ _ h)
  | err e s => exact .err e s
  | panic p => exact .panic p

theorem ite {R : α → β → Prop} {c : Prop} [Decidable c] {x x' : Out σ α} {y y' : Out σ β} (h : c → Rel R x y)
    (h' : ¬ c → Rel R x' y') : Rel R (if c then x else x') (if c then y else y') := by
  by_cases hc : c
  · rw [if_pos hc, if_pos hc]; exact h hc
  · rw [if_neg hc, if_neg hc]; exact h' hc

end Rel

/-- The lists agree below `n`, and above `n` the first one holds units. -/
structure Tie (n : Nat) (l k : List Int) : Prop extends Agree n l k where
  above : ∀ i, n ≤ i → ∀ u, l[i]? = some u → 0 ≤ u ∧ u < 1000000000

theorem app_congr {t d d' : List Int} {j : Nat} (h : t.length ≤ j → d[j - t.length]? = d'[j - t.length]?) :
    (t ++ d)[j]? = (t ++ d')[j]? := by
  rcases Nat.lt_or_ge j t.length with h1 | h1
  · rw [List.getElem?_append_left h1, List.getElem?_append_left h1]
  · rw [List.getElem?_append_right h1, List.getElem?_append_right h1, h h1]

namespace Tie
variable {n : Nat} {l k : List Int}

theorem grow {n' : Nat} (h : Tie n l k) (hn : n ≤ n') (hb : ∀ i, n ≤ i → i < n' → l[i]? = k[i]?) : Tie n' l k :=
  ⟨⟨h.len, fun i hi => if h' : i < n then h.below i h' else hb i (by omega) hi⟩, fun i hi u hu => h.above i (by omega) u hu⟩

theorem upd (h : Tie n l k) {i : Int} (hi : i ≤ n) (v : Int) :
    Rel (Tie (max n (i + 1).toNat)) (Fxd.upd l i v : Out σ _) (Fxd.upd k i v) := by
  unfold Fxd.upd
  rw [h.len]
  by_cases hc : 0 ≤ i ∧ i.toNat < k.length
  · rw [if_pos hc, if_pos hc]
    refine .ok ⟨⟨by rw [List.length_set, List.length_set, h.len], fun j hj => ?_⟩, fun j hj u hu => ?_⟩
    · rw [List.getElem?_set, List.getElem?_set, h.len]
      by_cases hij : i.toNat = j
      · rw [if_pos hij, if_pos hij]
      · rw [if_neg hij, if_neg hij, h.below j (by omega)]
    · rw [List.getElem?_set, if_neg (by omega)] at hu
      exact h.above j (by omega) u hu
  · rw [if_neg hc, if_neg hc]; exact .panic _

theorem copyFromSlice (h : Tie n l k) {a b : Int} (src : List Int) (hb : b ≤ n) :
    Rel (Tie n) (Fxd.copyFromSlice l a b src : Out σ _) (Fxd.copyFromSlice k a b src) := by
  unfold Fxd.copyFromSlice
  rw [h.len]
  by_cases hc : 0 ≤ a ∧ a ≤ b ∧ b ≤ (k.length : Int) ∧ b - a = src.length
  · rw [if_pos hc, if_pos hc]
    obtain ⟨c0, c1, c2, c3⟩ := hc
    have hl := h.len
    refine .ok ⟨⟨by simp [h.len], fun j hj => ?_⟩, fun j hj u hu => ?_⟩
    · rw [h.toAgree.take (j := a.toNat) (by omega)]
      refine app_congr (fun hle => ?_)
      rw [List.length_append, List.length_take] at hle ⊢
      rw [List.getElem?_drop, List.getElem?_drop, h.below _ (by omega)]
    · rw [List.append_assoc, List.getElem?_append, if_neg (by rw [List.length_take]; omega), List.getElem?_append,
        if_neg (by rw [List.length_take]; omega), List.getElem?_drop] at hu
      refine h.above _ ?_ u hu
      rw [List.length_take]
      omega
  · rw [if_neg hc, if_neg hc]; exact .panic _

theorem zeroRange (h : Tie n l k) {a b : Int} (hb : b ≤ n) :
    Rel (Tie n) (Fxd.zeroRange l a b : Out σ _) (Fxd.zeroRange k a b) := by
  have := h.copyFromSlice (σ := σ) (a := a) (b := b) (List.replicate (b - a).toNat 0) hb
  unfold Fxd.copyFromSlice at this
  unfold Fxd.zeroRange
  rw [List.length_replicate] at this
  by_cases hc : 0 ≤ a ∧ a ≤ b ∧ b ≤ (k.length : Int)
  · rw [h.len, if_pos (by omega), if_pos (by omega)] at this
    rw [h.len, if_pos hc, if_pos hc]; exact this
  · rw [h.len, if_neg hc, if_neg hc]; exact .panic _

theorem copyWithin (h : Tie n l k) {a b d : Int} (hb : b ≤ n) (hd : d ≤ n) :
    Rel (Tie (max n (d + (b - a)).toNat)) (Fxd.copyWithin l a b d : Out σ _) (Fxd.copyWithin k a b d) := by
  unfold Fxd.copyWithin
  rw [h.len]
  by_cases hc : 0 ≤ a ∧ a ≤ b ∧ b ≤ (k.length : Int) ∧ 0 ≤ d ∧ d + (b - a) ≤ (k.length : Int)
  · rw [if_pos hc, if_pos hc]
    obtain ⟨c0, c1, c2, c3, c4⟩ := hc
    have hl := h.len
    have hseg : (l.drop a.toNat).take (b - a).toNat = (k.drop a.toNat).take (b - a).toNat := by
      have := h.toAgree.slice (σ := Unit) (a := a) (b := b) hb
      unfold Fxd.slice at this
      rw [h.len, if_pos ⟨c0, c1, c2⟩, if_pos ⟨c0, c1, c2⟩] at this
      injection this
    have hsl : ((k.drop a.toNat).take (b - a).toNat).length = (b - a).toNat := by
      rw [List.length_take, List.length_drop]; omega
    rw [hseg]
    generalize (k.drop a.toNat).take (b - a).toNat = src at hsl ⊢
    refine .ok ⟨⟨by simp [h.len], fun j hj => ?_⟩, fun j hj u hu => ?_⟩
    · rw [h.toAgree.take (j := d.toNat) (by omega)]
      refine app_congr (fun hle => ?_)
      rw [List.length_append, List.length_take] at hle ⊢
      rw [List.getElem?_drop, List.getElem?_drop, h.below _ (by omega)]
    · rw [List.append_assoc, List.getElem?_append, if_neg (by rw [List.length_take]; omega), List.getElem?_append,
        if_neg (by rw [List.length_take]; omega), List.getElem?_drop] at hu
      refine h.above _ ?_ u hu
      rw [List.length_take]
      omega
  · rw [if_neg hc, if_neg hc]; exact .panic _

end Tie

/-- What the two runs of a rounding have in common. -/
def RoundRel (n : Nat) (a b : FixedDecimal) : Prop :=
  a.intg = b.intg ∧ a.frac = b.frac ∧ ∃ n', n ≤ n' ∧ iu a + fu a ≤ n' ∧ Tie n' a.lsu b.lsu

theorem bv_units : ∀ j ≤ 10, ∀ b : Bool, (BitVec.toNat (if b then BitVec.ofInt 8 ((j : Nat) * 9 : Int) ||| 0x80#8
    else BitVec.ofInt 8 ((j : Nat) * 9 : Int))) % 128 = j * 9 := by decide

theorem roundHalfUp_tie {a b : FixedDecimal} (hneg : a.isNeg = b.isNeg) {n I F : Nat} (hn : I + F ≤ n) (hI : I ≤ 9)
    (h : Tie n a.lsu b.lsu) {rf : Int} (hf : unitsFor rf.toNat ≤ F) {trunc : Int} (carry : Int)
    (ht : ∀ r p, (div9 (wrap 8 trunc) : Out σ Int) = .ok r → (mod9 (wrap 8 trunc) : Out σ Int) = .ok p →
      r ≤ n ∧ (p ≠ 0 → r < n)) :
    Rel (RoundRel n) (roundHalfUp m a I F trunc rf carry : Out σ _) (roundHalfUp m b I F trunc rf carry) := by
  unfold roundHalfUp
  refine .same _ (fun ri hr => .same _ (fun rp hp => ?_))
  obtain ⟨h1, h2⟩ := ht ri rp hr hp
  dsimp only
  refine Rel.bind (R := fun x y => Tie n x.1 y.1 ∧ x.2 = y.2) ?_ (fun x y hxy => ?_)
  · refine .ite (fun hp0 => ?_) (fun _ => .ok ⟨h, rfl⟩)
    have hlt := h2 hp0
    rw [h.toAgree.idx hlt]
    refine .same _ (fun u _ => .same _ (fun u _ => .same _ (fun y _ => ?_)))
    obtain ⟨u, c⟩ := y
    dsimp only
    refine Rel.bind (h.upd (by omega) u) (fun l k hlk => .ok ⟨?_, rfl⟩)
    rwa [max_eq_left (by omega)] at hlk
  · obtain ⟨l, i, c⟩ := x
    obtain ⟨k, i', c'⟩ := y
    obtain ⟨hlk, e⟩ := hxy
    obtain ⟨rfl, rfl⟩ := Prod.mk.inj e
    dsimp only at hlk ⊢
    refine Rel.bind (R := fun (x y : List Int × Int) => x.2 = y.2 ∧ ∃ j : Nat, x.2 = (j : Int) ∧ j ≤ 10 ∧ ∃ n', n ≤ n' ∧ j + F ≤ n' ∧ Tie n' x.1 y.1) ?_
      (fun x y hxy => ?_)
    · refine .ite (fun _ => ?_) (fun _ => .ok ⟨rfl, I, rfl, by omega, n, le_refl _, hn, hlk⟩)
      rw [hlk.toAgree.slice (by omega)]
      refine .same _ (fun seg _ => .same _ (fun y _ => ?_))
      obtain ⟨seg, c⟩ := y
      dsimp only
      refine Rel.bind (hlk.copyFromSlice seg (by omega)) (fun l k hlk => ?_)
      refine .ite (fun _ => ?_) (fun _ => .ok ⟨rfl, I, rfl, by omega, n, le_refl _, hn, hlk⟩)
      refine Rel.bind (hlk.upd (by omega) 1) (fun l k hlk => .ok ⟨rfl, I + 1, by push_cast; rfl, by omega, _, ?_, ?_, hlk⟩)
      · exact le_max_left _ _
      · omega
    · obtain ⟨l, i2⟩ := x
      obtain ⟨k, i2'⟩ := y
      obtain ⟨e, j, hj, hj10, n', hn1, hn2, hlk⟩ := hxy
      dsimp only at e hj hlk ⊢
      subst e
      refine Rel.bind (hlk.zeroRange (by omega)) (fun l k hlk => ?_)
      rw [hneg]
      refine .ok ?_
      have hI' : iu (if b.isNeg = true then FixedDecimal.setNeg ⟨BitVec.ofInt 8 (i2 * DIGITS_PER_UNIT), rf, l⟩
          else ⟨BitVec.ofInt 8 (i2 * DIGITS_PER_UNIT), rf, l⟩) = j := by
        unfold iu Spec.intgDigits
        have := bv_units j hj10 b.isNeg
        rw [hj]
        by_cases hb : b.isNeg = true
        · rw [if_pos hb] at this ⊢
          show unitsFor ((BitVec.ofInt 8 ((j : Int) * 9) ||| 0x80#8).toNat % 128) = j
          rw [this]; unfold unitsFor; omega
        · rw [if_neg hb] at this ⊢
          show unitsFor ((BitVec.ofInt 8 ((j : Int) * 9)).toNat % 128) = j
          rw [this]; unfold unitsFor; omega
      have hF : fu (if b.isNeg = true then FixedDecimal.setNeg ⟨BitVec.ofInt 8 (i2 * DIGITS_PER_UNIT), rf, l⟩
          else ⟨BitVec.ofInt 8 (i2 * DIGITS_PER_UNIT), rf, l⟩) = unitsFor rf.toNat := by split_ifs <;> rfl
      unfold RoundRel
      rw [hI', hF]
      refine ⟨by split_ifs <;> rfl, by split_ifs <;> rfl, n', hn1, by omega, ?_⟩
      split_ifs <;> exact hlk

theorem RoundRel.refl (a : FixedDecimal) : RoundRel 0 a a := by
  refine ⟨rfl, rfl, max a.lsu.length (iu a + fu a), Nat.zero_le _, le_max_right _ _, ⟨rfl, fun _ _ => rfl⟩, fun i hi u hu => ?_⟩
  rw [List.getElem?_eq_none (by omega)] at hu
  cases hu

theorem RoundRel.weaken {n : Nat} {a b : FixedDecimal} (h : RoundRel n a b) : RoundRel 0 a b := by
  obtain ⟨h1, h2, n', -, h3, h4⟩ := h
  exact ⟨h1, h2, n', Nat.zero_le _, h3, h4⟩

theorem Sim.tie {a b : FixedDecimal} (h : Sim a b) : Tie (iu a + fu a) a.lsu b.lsu :=
  ⟨h.agree, fun _ _ _ hu => h.left.units _ (List.mem_of_getElem? hu)⟩

theorem Sim.setZero_eq {a b : FixedDecimal} (h : Sim a b) : a.setZero = b.setZero := by
  unfold FixedDecimal.setZero FixedDecimal.resetUnits
  dsimp only
  rw [List.map_const', List.map_const', h.left.len, h.right.len]

/-- The bounds that the negative branch of the two functions provides. -/
theorem trunc_intg {d : FixedDecimal} (hd : Usable d) {k i i1 : Int} (hk : k < 0) (h1 : (isz m (-k) : Out σ Int) = .ok i)
    (h2 : (isz m (i + 1) : Out σ Int) = .ok i1) (h3 : ¬ i1 > d.intgDigits) (hlow : -2 ^ 63 ≤ k) (r p : Int)
    (hr : (div9 (wrap 8 i) : Out σ Int) = .ok r) (hp : (mod9 (wrap 8 i) : Out σ Int) = .ok p) :
    r ≤ (iu d + fu d : Nat) ∧ (p ≠ 0 → r < (iu d + fu d : Nat)) := by
  rw [intgDigits_eq] at h3
  have hfit := hd.fits
  by_cases hm : k = -2 ^ 63
  · have hi : i = -2 ^ 63 := by
      subst hm
      unfold isz sarith at h1
      rw [if_neg (by norm_num)] at h1
      cases m
      · cases h1
      · injection h1 with h1; rw [← h1]; rfl
    rw [hi, show wrap 8 (-2 ^ 63) = 0 by decide] at hr hp
    rw [div9_ok (by norm_num) (by norm_num)] at hr
    rw [mod9_ok (by norm_num) (by norm_num)] at hp
    injection hr with hr; injection hp with hp
    omega
  · have hi : i = -k := by
      rw [isz_ok (by norm_num at hlow; omega) (by norm_num at hlow hm; omega)] at h1
      injection h1 with h1; exact h1.symm
    by_cases hm1 : k = -2 ^ 63 + 1
    · rw [hi, hm1, show wrap 8 (-(-2 ^ 63 + 1)) = -1 by decide] at hr
      unfold div9 at hr
      rw [idx_oob (Or.inl (by norm_num))] at hr
      cases hr
    · rw [isz_ok (by norm_num at hlow; omega) (by norm_num at hlow hm hm1; omega)] at h2
      injection h2 with h2
      have hlt := intgDigits_lt d
      have hle := intgDigits_le_iu d
      rw [wrap8_ok (by omega) (by omega)] at hr hp
      rw [div9_ok (by omega) (by omega)] at hr
      injection hr with hr
      omega

theorem roundTo_rel {d d' : FixedDecimal} (h : Sim d d') (res : FixedDecimal) {k : Int} (hlow : -2 ^ 63 ≤ k)
    (hk : d.frac ≤ k → 0 ≤ wrap 8 k) :
    Rel (RoundRel 0) (d.roundTo m res k : Out σ _) (d'.roundTo m res k) := by
  unfold FixedDecimal.roundTo
  rw [← h.intgUnits, ← h.fracUnits, h.left.intgUnits, h.left.fracUnits, h.alike.intg, ← h.alike.frac]
  simp only [ok_bind]
  have hfit := h.left.fits
  have hag := h.agree
  have hfe := h.left.frac_eq
  have hfn := h.left.frac_nonneg
  have hff : d.frac ≤ 81 := by
    rw [hfe]; unfold fu unitsFor at hfit; omega
  have hfu : fu d = unitsFor d.frac.toNat := rfl
  refine .ite (fun hge => ?_) (fun hlt => .ite (fun hneg => ?_) (fun hnn => ?_))
  · have hw := hk hge
    have hw' : wrap 8 k < 128 := by unfold wrap; have := Int.bmod_lt (x := k) (m := 2 ^ 8) (by norm_num); norm_num at this ⊢; omega
    refine .same _ (fun rfu hr => .ite (fun he => ?_) (fun _ => ?_))
    · refine .ok ⟨rfl, rfl, iu d + fu d, Nat.zero_le _, ?_, h.tie⟩
      have hlt : wrap 8 k < 120 := by
        by_contra hc
        obtain ⟨p, hp⟩ := getUnits_oob (σ := σ) (m := m) (x := wrap 8 k) (by omega) hw'
        rw [hp] at hr; cases hr
      have e2 : rfu = unitsFor (wrap 8 k).toNat := by
        have := getUnits_nat (σ := σ) (m := m) (n := (wrap 8 k).toNat) (by omega)
        rw [Int.toNat_of_nonneg hw, hr] at this
        injection this
      have e3 : unitsFor (wrap 8 k).toNat = fu d := by omega
      show unitsFor (d'.intg.toNat % 128) + unitsFor (wrap 8 k).toNat ≤ iu d + fu d
      rw [e3, ← h.alike.intg]; exact le_refl _
    · refine .same _ (fun off _ => ?_)
      rw [hag.slice (by push_cast; omega)]
      exact .of_eq rfl (fun a _ => .refl a)
  · refine .same _ (fun i h1 => .same _ (fun i1 h2 => ?_))
    rw [h.dig_eq]
    refine .ite (fun _ => .ok (.refl _)) (fun h3 => ?_)
    rw [hag.slice (by push_cast; omega)]
    exact .of_eq rfl (fun a _ => .refl a)
  · rw [wrap8_ok (by omega) (by omega)]
    refine .same _ (fun f1 h1 => .same _ (fun rfu h2 => ?_))
    rw [i8_ok (by omega) (by omega)] at h1
    injection h1 with h1
    obtain ⟨K, rfl⟩ : ∃ K : Nat, k = K := ⟨k.toNat, by omega⟩
    rw [← h1, show ((K : Int) + 1) = ((K + 1 : Nat) : Int) by push_cast; rfl, getUnits_nat (by omega)] at h2
    injection h2 with h2
    have hfu1 : 1 ≤ fu d := by rw [hfu]; unfold unitsFor; omega
    have hru1 : 1 ≤ unitsFor (K + 1) := by unfold unitsFor; omega
    refine .ite (fun hr => ?_) (fun hr => ?_)
    · refine .same _ (fun p hp => ?_)
      have hi : (idx d.lsu ((fu d : Int) - rfu) : Out σ Int) = idx d'.lsu ((fu d : Int) - rfu) := hag.idx (by omega)
      rw [hi]
      refine .same _ (fun x hx => ?_)
      obtain ⟨c, rfu'⟩ := x
      dsimp only
      have hs : (slice d.lsu ((fu d : Int) - rfu') ((fu d : Int) + iu d) : Out σ _) =
        slice d'.lsu ((fu d : Int) - rfu') ((fu d : Int) + iu d) := hag.slice (by push_cast; omega)
      rw [hs]
      exact .of_eq rfl (fun a _ => .refl a)
    · refine .same _ (fun _ _ => .same _ (fun p hp => .ite (fun hp0 => ?_) (fun hp0 => ?_)))
      · have hi : (idx d.lsu 0 : Out σ Int) = idx d'.lsu 0 := hag.idx (by omega)
        have hs : (slice d.lsu 1 ((fu d : Int) + iu d) : Out σ _) = slice d'.lsu 1 ((fu d : Int) + iu d) :=
          hag.slice (by push_cast; omega)
        rw [hi, hs]
        exact .of_eq rfl (fun a _ => .refl a)
      · have e : unitsFor (K + 1) = fu d := by
          have : unitsFor (K + 1) ≤ fu d := by rw [hfu]; unfold unitsFor; omega
          omega
        refine (roundHalfUp_tie (a := ⟨d'.intg, res.setZero.frac, d.lsu⟩) (b := ⟨d'.intg, res.setZero.frac, d'.lsu⟩) ?_
          (n := iu d + fu d) (le_refl _) (by omega) h.tie ?_ 0 ?_).mono (fun a b h => h.weaken)
        · rfl
        · rw [Int.toNat_natCast, ← e]; unfold unitsFor; omega
        · intro r q hr hq
          have hb : 0 ≤ (fu d : Int) * 9 - K ∧ (fu d : Int) * 9 - K < 9 := by
            rw [← e]
            rw [mod9_ok (by omega) (by omega)] at hp
            injection hp with hp
            unfold unitsFor
            omega
          show r ≤ _ ∧ _
          rw [show (DIGITS_PER_UNIT : Int) = 9 from rfl, wrap8_ok (by omega) (by omega), div9_ok (by omega) (by omega)] at hr
          injection hr with hr
          omega

theorem round_rel {d d' : FixedDecimal} (h : Sim d d') {k : Int} (hlow : -2 ^ 63 ≤ k)
    (hk : d.frac ≤ k → 0 ≤ wrap 8 k ∧ unitsFor (wrap 8 k).toNat ≤ iu d + 2 * fu d) :
    Rel (RoundRel 0) (d.round m k : Out σ _) (d'.round m k) := by
  unfold FixedDecimal.round
  rw [← h.intgUnits, ← h.fracUnits, h.left.intgUnits, h.left.fracUnits, ← h.alike.frac]
  simp only [ok_bind]
  have hfit := h.left.fits
  have hag := h.agree
  have hfe := h.left.frac_eq
  have hfn := h.left.frac_nonneg
  have hff : d.frac ≤ 81 := by
    rw [hfe]; unfold fu unitsFor at hfit; omega
  have hfu : fu d = unitsFor d.frac.toNat := rfl
  have hng : d.isNeg = d'.isNeg := h.isNeg_eq
  refine .ite (fun hge => ?_) (fun hlt => .ite (fun hneg => ?_) (fun hnn => ?_))
  · obtain ⟨hw, hgap⟩ := hk hge
    have hw' : wrap 8 k < 128 := by unfold wrap; have := Int.bmod_lt (x := k) (m := 2 ^ 8) (by norm_num); norm_num at this ⊢; omega
    refine .same _ (fun rfu hr => ?_)
    have hlt : wrap 8 k < 120 := by
      by_contra hc
      obtain ⟨p, hp⟩ := getUnits_oob (σ := σ) (m := m) (x := wrap 8 k) (by omega) hw'
      rw [hp] at hr; cases hr
    have e2 : rfu = unitsFor (wrap 8 k).toNat := by
      have := getUnits_nat (σ := σ) (m := m) (n := (wrap 8 k).toNat) (by omega)
      rw [Int.toNat_of_nonneg hw, hr] at this
      injection this
    refine .ite (fun he => ?_) (fun hne => ?_)
    · refine .ok ⟨h.alike.intg, rfl, iu d + fu d, Nat.zero_le _, ?_, h.tie⟩
      have e3 : unitsFor (wrap 8 k).toNat = fu d := by omega
      show iu d + unitsFor (wrap 8 k).toNat ≤ iu d + fu d
      rw [e3]
    · refine .same _ (fun off ho => ?_)
      have hu9 : unitsFor (wrap 8 k).toNat ≤ 14 := by unfold unitsFor; omega
      have hoff : off = rfu - fu d ∨ off ≥ 2 ^ 62 := by
        unfold usz at ho
        by_cases hc : 0 ≤ rfu - (fu d : Int) ∧ rfu - (fu d : Int) < 2 ^ 64
        · rw [if_pos hc] at ho; injection ho with ho; exact Or.inl ho.symm
        · rw [if_neg hc] at ho
          cases m
          · cases ho
          · injection ho with ho
            right; rw [← ho]; norm_num at hc ⊢; omega
      rcases hoff with hoff | hoff
      · refine Rel.bind (h.tie.copyWithin (by omega) (by omega)) (fun l l' hl => .ok ⟨h.alike.intg, rfl, _, Nat.zero_le _, ?_, hl⟩)
        show iu d + unitsFor (wrap 8 k).toNat ≤ _
        omega
      · have hx : ∀ l : List Int, l.length = 9 → (copyWithin l 0 ((fu d : Int) + iu d) off : Out σ _) = .panic .index := by
          intro l hl
          unfold copyWithin
          rw [if_neg]
          rw [hl]; norm_num at hoff ⊢; omega
        rw [hx _ h.left.len, hx _ h.right.len]
        exact .panic _
  · refine .same _ (fun i h1 => .same _ (fun i1 h2 => ?_))
    rw [h.dig_eq]
    refine .ite (fun _ => ?_) (fun h3 => ?_)
    · rw [h.setZero_eq]; exact .ok (.refl _)
    refine Rel.bind (h.tie.copyWithin (by omega) (by omega)) (fun l l' hl => ?_)
    rw [max_eq_left (by omega)] at hl
    refine Rel.bind (hl.zeroRange (by omega)) (fun l l' hl => ?_)
    rw [← h.dig_eq] at h3
    exact (roundHalfUp_tie (a := ⟨d.intg, d.frac, l⟩) (b := ⟨d'.intg, d.frac, l'⟩) (n := iu d + fu d) (I := iu d) (F := 0)
      (rf := 0) hng (by omega) (by omega) hl (by decide) 0 (trunc_intg h.left hneg h1 h2 h3 hlow)).mono
      (fun a b h => h.weaken)
  · rw [wrap8_ok (by omega) (by omega)]
    refine .same _ (fun f1 h1 => .same _ (fun rfu h2 => ?_))
    rw [i8_ok (by omega) (by omega)] at h1
    injection h1 with h1
    obtain ⟨K, rfl⟩ : ∃ K : Nat, k = K := ⟨k.toNat, by omega⟩
    rw [← h1, show ((K : Int) + 1) = ((K + 1 : Nat) : Int) by push_cast; rfl, getUnits_nat (by omega)] at h2
    injection h2 with h2
    have hfu1 : 1 ≤ fu d := by rw [hfu]; unfold unitsFor; omega
    have hru1 : 1 ≤ unitsFor (K + 1) := by unfold unitsFor; omega
    refine .ite (fun hr => ?_) (fun hr => ?_)
    · refine .same _ (fun p hp => ?_)
      rw [mod9_ok (by omega) (by omega)] at hp
      injection hp with hp
      have hi : (idx d.lsu ((fu d : Int) - rfu) : Out σ Int) = idx d'.lsu ((fu d : Int) - rfu) := hag.idx (by omega)
      rw [hi]
      refine .same _ (fun x hx => ?_)
      obtain ⟨c, rfu'⟩ := x
      have hrf : rfu' = unitsFor K := by
        by_cases hp0 : p = 0
        · rw [if_pos hp0] at hx
          obtain ⟨v, -, hx⟩ := bind_eq_ok.mp hx
          rw [usz_ok (by omega) (by omega)] at hx
          injection hx with hx
          have := (Prod.mk.inj hx).2
          unfold unitsFor at h2 ⊢
          omega
        · rw [if_neg hp0] at hx
          injection hx with hx
          have := (Prod.mk.inj hx).2
          unfold unitsFor at h2 ⊢
          omega
      dsimp only
      have hle : unitsFor K ≤ fu d := by rw [hfu]; unfold unitsFor; omega
      refine Rel.bind (h.tie.copyWithin (by omega) (by omega)) (fun l l' hl => ?_)
      rw [max_eq_left (by omega)] at hl
      refine Rel.bind (hl.zeroRange (by omega)) (fun l l' hl => ?_)
      rw [hrf]
      refine (roundHalfUp_tie (a := ⟨d.intg, d.frac, l⟩) (b := ⟨d'.intg, d.frac, l'⟩) hng
        (n := iu d + fu d) (by omega) (by omega) hl (le_of_eq (congrArg unitsFor (Int.toNat_natCast K))) c ?_).mono (fun a b h => h.weaken)
      intro r q hr' hq
      have hb : 0 ≤ (unitsFor K : Int) * 9 - K ∧ (unitsFor K : Int) * 9 - K < 9 := by unfold unitsFor; omega
      rw [show (DIGITS_PER_UNIT : Int) = 9 from rfl, wrap8_ok (by omega) (by omega), div9_ok (by omega) (by omega)] at hr'
      injection hr' with hr'
      omega
    · refine .same _ (fun _ _ => .same _ (fun p hp => ?_))
      rw [mod9_ok (by omega) (by omega)] at hp
      injection hp with hp
      have e : unitsFor (K + 1) = fu d := by
        have : unitsFor (K + 1) ≤ fu d := by rw [hfu]; unfold unitsFor; omega
        omega
      refine .ite (fun hp0 => ?_) (fun hp0 => ?_)
      · have hi : (idx d.lsu 0 : Out σ Int) = idx d'.lsu 0 := hag.idx (by omega)
        rw [hi]
        refine .same _ (fun v _ => ?_)
        refine Rel.bind (h.tie.copyWithin (by omega) (by omega)) (fun l l' hl => ?_)
        rw [max_eq_left (by omega)] at hl
        rw [usz_ok (by omega) (by omega)]
        simp only [ok_bind]
        refine Rel.bind (hl.upd (by omega) 0) (fun l l' hl => ?_)
        rw [max_eq_left (by omega)] at hl
        rw [usz_ok (by omega) (by omega)]
        simp only [ok_bind]
        have e1 : (fu d : Int) - 1 = ((fu d - 1 : Nat) : Int) := by omega
        rw [e1]
        have hK : unitsFor K = fu d - 1 := by unfold unitsFor at e ⊢; omega
        refine (roundHalfUp_tie (a := ⟨d.intg, d.frac, l⟩) (b := ⟨d'.intg, d.frac, l'⟩) hng
          (n := iu d + fu d) (by omega) (by omega) hl (by rw [Int.toNat_natCast]; omega) _ ?_).mono (fun a b h => h.weaken)
        intro r q hr' hq
        have hb : 0 ≤ ((fu d - 1 : Nat) : Int) * 9 - K ∧ ((fu d - 1 : Nat) : Int) * 9 - K < 9 := by
          unfold unitsFor at hK; omega
        rw [show (DIGITS_PER_UNIT : Int) = 9 from rfl, wrap8_ok (by omega) (by omega), div9_ok (by omega) (by omega)] at hr'
        injection hr' with hr'
        omega
      · refine (roundHalfUp_tie hng (n := iu d + fu d) (by omega) (by omega) h.tie ?_ 0 ?_).mono (fun a b h => h.weaken)
        · rw [Int.toNat_natCast, ← e]; unfold unitsFor; omega
        · intro r q hr' hq
          have hb : 0 ≤ (fu d : Int) * 9 - K ∧ (fu d : Int) * 9 - K < 9 := by
            rw [← e]; unfold unitsFor; omega
          rw [show (DIGITS_PER_UNIT : Int) = 9 from rfl, wrap8_ok (by omega) (by omega), div9_ok (by omega) (by omega)] at hr'
          injection hr' with hr'
          omega

/-- Results of rounding are usable and alike when those of the second run are well-formed. -/
theorem RoundRel.sim {n : Nat} {a b : FixedDecimal} (h : RoundRel n a b) (hb : WF b) : Sim a b := by
  obtain ⟨h1, h2, n', -, h3, h4⟩ := h
  have ei : iu a = iu b := by unfold iu Spec.intgDigits; rw [h1]
  have ef : fu a = fu b := by unfold fu fracDigits; rw [h2]
  refine ⟨⟨by rw [h4.len, hb.len], fun u hu => ?_, by rw [h2]; exact hb.frac_nonneg, by rw [ei, ef]; exact hb.fits⟩,
    ⟨hb.len, hb.units, hb.frac_nonneg, hb.fits⟩, h1, h2, ?_⟩
  · obtain ⟨i, hi⟩ := List.getElem?_of_mem hu
    rcases Nat.lt_or_ge i n' with hlt | hge
    · rw [h4.below i hlt] at hi
      exact hb.units u (List.mem_of_getElem? hi)
    · exact h4.above i hge u hi
  · rw [← ei, ← ef, h4.toAgree.take h3]

/-- Rounding fractional digits away copies only visible units into the fresh output. -/
theorem roundTo0_sim {d d' : FixedDecimal} (h : Sim d d') (hf : 0 < fu d) (res : FixedDecimal) :
    (d.roundTo m res 0 : Out σ _) = d'.roundTo m res 0 := by
  unfold FixedDecimal.roundTo
  rw [← h.intgUnits, ← h.fracUnits, h.left.intgUnits, h.left.fracUnits, h.alike.intg, ← h.alike.frac]
  simp only [ok_bind]
  have hfit := h.left.fits
  have hag := h.agree
  have hfn := h.left.frac_nonneg
  have hf0 : ¬ (0 : Int) ≥ d.frac := by
    intro hc
    have : fu d = 0 := by unfold fu fracDigits unitsFor; omega
    omega
  rw [if_neg hf0, if_neg hf0, if_neg (by decide), if_neg (by decide), wrap8_ok (by omega) (by omega)]
  refine bind_agree rfl (fun f1 h1 => bind_agree rfl (fun rfu h2 => ?_))
  rw [i8_ok (by omega) (by omega)] at h1
  injection h1 with h1
  rw [← h1, show ((0 : Int) + 1) = ((1 : Nat) : Int) by rfl, getUnits_nat (by omega)] at h2
  injection h2 with h2
  rw [show unitsFor 1 = 1 from rfl] at h2
  have hmod : (mod9 0 : Out σ Int) = .ok 0 := rfl
  by_cases hr : rfu < (fu d : Int)
  · rw [if_pos hr, if_pos hr]
    refine bind_agree rfl (fun p hp => ?_)
    have hi : (idx d.lsu ((fu d : Int) - rfu) : Out σ Int) = idx d'.lsu ((fu d : Int) - rfu) := hag.idx (by omega)
    rw [hi]
    refine bind_agree rfl (fun x hx => ?_)
    obtain ⟨c, rfu'⟩ := x
    dsimp only
    have hs : (slice d.lsu ((fu d : Int) - rfu') ((fu d : Int) + iu d) : Out σ _) =
      slice d'.lsu ((fu d : Int) - rfu') ((fu d : Int) + iu d) := hag.slice (by push_cast; omega)
    rw [hs]
  · rw [if_neg hr, if_neg hr]
    refine bind_agree rfl (fun _ _ => bind_agree rfl (fun p hp => ?_))
    rw [hmod] at hp
    injection hp with hp
    rw [← hp, if_pos rfl, if_pos rfl]
    have hi : (idx d.lsu 0 : Out σ Int) = idx d'.lsu 0 := hag.idx (by omega)
    have hs : (slice d.lsu 1 ((fu d : Int) + iu d) : Out σ _) = slice d'.lsu 1 ((fu d : Int) + iu d) :=
      hag.slice (by push_cast; omega)
    rw [hi]
    refine bind_agree rfl (fun _ _ => ?_)
    rw [hs]

end Fxd
