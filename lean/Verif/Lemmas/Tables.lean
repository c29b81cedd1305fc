import Verif.Spec.Tables
import Verif.Lemmas.Parsed

/-! Rules for showing that a parser reads a table. -/

namespace Verif

theorem matches_append {t u : Table} {b : List Bool} :
    Matches (t ++ u) b ↔ ∃ c d, b = c ++ d ∧ Matches t c ∧ Matches u d := by
  induction t generalizing b with
  | nil =>
    constructor
    · intro h; exact ⟨[], b, rfl, rfl, h⟩
    · rintro ⟨c, d, rfl, rfl, h⟩; exact h
  | cons f t ih =>
    constructor
    · rintro ⟨c, d, rfl, h1, h2, h3⟩
      obtain ⟨e, g, rfl, h4, h5⟩ := ih.1 h3
      exact ⟨c ++ e, g, (List.append_assoc ..).symm, ⟨c, e, rfl, h1, h2, h4⟩, h5⟩
    · rintro ⟨c, d, rfl, ⟨e, g, rfl, h1, h2, h3⟩, h4⟩
      exact ⟨e, g ++ d, List.append_assoc .., h1, h2, ih.2 ⟨g, d, rfl, h3, h4⟩⟩

/-- Every value fits into its field. -/
def Fits (t : Table) : Prop := ∀ w v, (w, some v) ∈ t → 0 ≤ v ∧ v < 2 ^ w

theorem Matches.fits {t : Table} {b : List Bool} (h : Matches t b) : Fits t := by
  induction t generalizing b with
  | nil => intro _ _ h; cases h
  | cons f t ih =>
    obtain ⟨c, d, rfl, h1, h2, h3⟩ := h
    intro w v hm
    rcases List.mem_cons.1 hm with rfl | hm
    · have := h2 v rfl
      have hl := bitsToNat_lt c
      simp only at h1
      rw [h1] at hl
      have hl' : ((bitsToNat c : Nat) : Int) < ((2 ^ w : Nat) : Int) := by exact_mod_cast hl
      push_cast at hl'
      omega
    · exact ih h3 w v hm

namespace Decodes

variable {α β : Type}

theorem cast {p : P α} {Q R : α → Table → Prop} (h : Decodes p Q)
    (hr : ∀ x t, Fits t → (Q x t ↔ R x t)) : Decodes p R := by
  intro s x s'
  rw [h]
  constructor
  · rintro ⟨t, b, h1, h2, h3⟩; exact ⟨t, b, (hr x t h2.fits).1 h1, h2, h3⟩
  · rintro ⟨t, b, h1, h2, h3⟩; exact ⟨t, b, (hr x t h2.fits).2 h1, h2, h3⟩

theorem bind {p : P α} {f : α → P β} {Q : α → Table → Prop} {R : α → β → Table → Prop} (h : Decodes p Q)
    (hf : ∀ a, Decodes (f a) (R a)) :
    Decodes (p >>= f) fun x t => ∃ a t1 t2, Q a t1 ∧ R a x t2 ∧ t = t1 ++ t2 := by
  intro s x s'
  rw [P.bind_ok]
  constructor
  · rintro ⟨a, s1, h1, h2⟩
    obtain ⟨t1, b1, q1, m1, r1, p1⟩ := (h s a s1).1 h1
    obtain ⟨t2, b2, q2, m2, r2, p2⟩ := (hf a s1 x s').1 h2
    refine ⟨t1 ++ t2, b1 ++ b2, ⟨a, t1, t2, q1, q2, rfl⟩, matches_append.2 ⟨b1, b2, rfl, m1, m2⟩, ?_, ?_⟩
    · rw [r1, r2, List.append_assoc]
    · rw [p2, p1, List.length_append]; omega
  · rintro ⟨_, b, ⟨a, t1, t2, q1, q2, rfl⟩, m, r, p⟩
    obtain ⟨b1, b2, rfl, m1, m2⟩ := matches_append.1 m
    refine ⟨a, ⟨s.pos + b1.length, b2 ++ s'.rest⟩, (h _ _ _).2 ⟨t1, b1, q1, m1, ?_, rfl⟩,
      (hf _ _ _ _).2 ⟨t2, b2, q2, m2, rfl, ?_⟩⟩
    · rw [r, List.append_assoc]
    · rw [p, List.length_append]; show _ = s.pos + b1.length + b2.length; omega

theorem lift (e : Except PyErr α) : Decodes (P.lift e) fun x t => e = .ok x ∧ t = [] := by
  intro s x s'
  rw [P.lift_ok]
  constructor
  · rintro ⟨h, rfl⟩; exact ⟨[], [], ⟨h, rfl⟩, rfl, rfl, rfl⟩
  · rintro ⟨_, b, ⟨h, rfl⟩, hb, h1, h2⟩
    cases hb
    obtain ⟨p, r⟩ := s
    obtain ⟨p', r'⟩ := s'
    cases h1; cases h2
    exact ⟨h, rfl⟩

theorem pure (a : α) : Decodes (Pure.pure a : P α) fun x t => x = a ∧ t = [] := by
  intro s x s'
  have := lift (.ok a : Except PyErr α) s x s'
  rw [P.lift_ok] at this
  rw [P.pure_ok]
  refine Iff.trans ?_ (this.trans ?_)
  · simp
  · simp [eq_comm]

theorem raise (e : PyErr) : Decodes (P.raise e : P α) fun _ _ => False := by
  intro s x s'
  constructor
  · intro h; cases h
  · rintro ⟨_, _, h, _⟩; cases h

theorem assert (c : Prop) [Decidable c] (b : Bool) : Decodes (P.assert c b) fun _ t => c ∧ t = [] := by
  intro s x s'
  rw [P.assert_ok]
  constructor
  · rintro ⟨h, rfl⟩; exact ⟨[], [], ⟨h, rfl⟩, rfl, rfl, rfl⟩
  · rintro ⟨_, b, ⟨h, rfl⟩, hb, h1, h2⟩
    cases hb
    obtain ⟨p, r⟩ := s
    obtain ⟨p', r'⟩ := s'
    cases h1; cases h2
    exact ⟨h, rfl⟩

theorem takeBits (n : Nat) (g : List Bool → α) (Q : α → Option Int → Prop)
    (h : ∀ l, l.length = n → ∀ x, g l = x ↔ ∃ v, Q x v ∧ ∀ u, v = some u → (bitsToNat l : Int) = u) :
    Decodes (do let l ← P.takeBits n; return g l) fun x t => ∃ v, Q x v ∧ t = [(n, v)] := by
  intro s x s'
  simp only [P.bind_ok, P.takeBits_ok, P.pure_ok]
  constructor
  · rintro ⟨l, s1, ⟨h1, h2, h3⟩, h4, rfl⟩
    obtain ⟨v, hq, hv⟩ := (h l h1 x).1 h4
    exact ⟨_, l, ⟨v, hq, rfl⟩, ⟨l, [], by simp, h1, hv, rfl⟩, h2, by rw [h3, h1]⟩
  · rintro ⟨_, b, ⟨v, hq, rfl⟩, ⟨c, d, rfl, h1, h2, rfl⟩, h3, h4⟩
    rw [List.append_nil] at h3 h4
    exact ⟨c, s', ⟨h1, h3, by rw [h4]; exact congrArg (s.pos + ·) h1⟩, (h c h1 x).2 ⟨v, hq, h2⟩, rfl⟩

theorem uint (n : Nat) : Decodes (P.uint n) fun v t => t = [(n, some v)] := by
  refine cast (takeBits n (fun l => (bitsToNat l : Int)) (fun x v => v = some x) ?_) ?_
  · intro l _ x
    constructor
    · rintro rfl; exact ⟨_, rfl, by rintro u ⟨⟩; rfl⟩
    · rintro ⟨_, rfl, h⟩; exact h x rfl
  · intro x t _
    constructor
    · rintro ⟨_, rfl, h⟩; exact h
    · intro h; exact ⟨_, rfl, h⟩

theorem pad (n : Nat) : Decodes (P.pad n) fun _ t => t = [(n, none)] := by
  refine cast (takeBits n (fun _ => ()) (fun _ v => v = none) ?_) ?_
  · intro l _ x
    constructor
    · rintro rfl; exact ⟨_, rfl, by rintro u ⟨⟩⟩
    · rintro ⟨_, rfl, h⟩; rfl
  · intro x t _
    constructor
    · rintro ⟨_, rfl, h⟩; exact h
    · intro h; exact ⟨_, rfl, h⟩

theorem bool : Decodes P.bool fun v t => t = [bit v] := by
  refine cast (takeBits 1 (fun l => bitsToNat l == 1) (fun x v => v = some (if x then 1 else 0)) ?_) ?_
  · intro l hl x
    obtain ⟨b, rfl⟩ : ∃ b, l = [b] := List.length_eq_one_iff.1 hl
    cases b <;> cases x <;> simp [bitsToNat]
  · intro x t _
    constructor
    · rintro ⟨_, rfl, h⟩; exact h
    · intro h; exact ⟨_, rfl, h⟩

theorem sint8 : Decodes (P.sint 8) fun v t => (-128 ≤ v ∧ v ≤ 127) ∧ t = [signedInt 8 v] := by
  refine cast (takeBits 8 bitsToInt (fun x v => (-128 ≤ x ∧ x ≤ 127) ∧ v = some (x % 2 ^ 8)) ?_) ?_
  · intro l hl x
    have hlt := bitsToNat_lt l
    rw [hl] at hlt
    have key : bitsToInt l = if bitsToNat l < 128 then (bitsToNat l : Int) else (bitsToNat l : Int) - 256 := by
      obtain ⟨b, m, rfl⟩ : ∃ b m, l = b :: m := by
        cases l with
        | nil => cases hl
        | cons b m => exact ⟨b, m, rfl⟩
      have hm : m.length = 7 := by simpa using hl
      have h7 := bitsToNat_lt m
      rw [hm] at h7
      have hc : bitsToNat (b :: m) = b.toNat * 128 + bitsToNat m := by
        have := bitsToNat_append [b] m
        rw [hm] at this
        simpa [bitsToNat] using this
      cases b
      · simp only [bitsToInt, hc]
        rw [if_pos (by simp; omega)]
      · simp only [bitsToInt, hc, hl]
        rw [if_neg (by simp)]
        norm_num
    rw [key]
    constructor
    · rintro rfl
      refine ⟨_, ⟨?_, rfl⟩, ?_⟩
      · split <;> omega
      · rintro u ⟨⟩; split <;> omega
    · rintro ⟨_, ⟨h1, rfl⟩, h2⟩
      have := h2 _ rfl
      split <;> omega
  · intro x t _
    constructor
    · rintro ⟨_, ⟨h1, rfl⟩, h⟩; exact ⟨h1, h⟩
    · rintro ⟨h1, h⟩; exact ⟨_, ⟨h1, rfl⟩, h⟩

theorem matches_octets {x : List UInt8} {b : List Bool} : Matches (octets (ords x)) b ↔ b = bytesToBits x := by
  induction x generalizing b with
  | nil => exact Iff.rfl
  | cons v x ih =>
    show (∃ c d, b = c ++ d ∧ c.length = 8 ∧ (∀ u, some (v.toNat : Int) = some u → (bitsToNat c : Int) = u) ∧
      Matches (octets (ords x)) d) ↔ _
    rw [bytesToBits_cons]
    constructor
    · rintro ⟨c, d, rfl, h1, h2, h3⟩
      have h2 := h2 _ rfl
      rw [ih.1 h3, ← bitsOf_bitsToNat c, h1, Int.ofNat_inj.1 h2]
    · rintro rfl
      refine ⟨_, _, rfl, bitsOf_length .., ?_, ih.2 rfl⟩
      rintro u ⟨⟩
      rw [bitsToNat_bitsOf, Nat.mod_eq_of_lt v.toNat_lt]

theorem bytes (n : Nat) : Decodes (P.bytes n) fun x t => x.length = n ∧ t = octets (ords x) := by
  intro s x s'
  rw [P.bytes_ok]
  constructor
  · rintro ⟨h1, h2, h3⟩
    exact ⟨_, _, ⟨h1, rfl⟩, matches_octets.2 rfl, h2, by rw [h3, bytesToBits_length, h1]⟩
  · rintro ⟨_, b, ⟨h1, rfl⟩, hb, h2, h3⟩
    rw [matches_octets.1 hb] at h2 h3
    exact ⟨h1, h2, by rw [h3, bytesToBits_length, h1]⟩

theorem replicate {p : P α} {B : α → Prop} {T : α → Table} (h : Decodes p fun x t => B x ∧ t = T x) (n : Nat) :
    Decodes (P.replicate n p) fun xs t => xs.length = n ∧ (∀ x ∈ xs, B x) ∧ t = xs.flatMap T := by
  induction n with
  | zero =>
    refine cast (pure []) ?_
    intro x t _
    constructor
    · rintro ⟨rfl, rfl⟩; exact ⟨rfl, nofun, rfl⟩
    · rintro ⟨h, -, rfl⟩
      rw [List.length_eq_zero_iff] at h
      exact ⟨h, by rw [h]; rfl⟩
  | succ n ih =>
    refine cast (bind h fun a => bind ih fun as => pure (a :: as)) ?_
    intro x t _
    constructor
    · rintro ⟨a, _, _, ⟨ha, rfl⟩, ⟨as, _, _, ⟨hl, hb, rfl⟩, ⟨rfl, rfl⟩, rfl⟩, rfl⟩
      refine ⟨by simp [hl], ?_, by simp⟩
      intro y hy
      rcases List.mem_cons.1 hy with rfl | hy
      · exact ha
      · exact hb y hy
    · rintro ⟨hl, hb, rfl⟩
      obtain ⟨a, as, rfl⟩ : ∃ a as, x = a :: as := by
        cases x with
        | nil => simp at hl
        | cons a as => exact ⟨a, as, rfl⟩
      exact ⟨a, _, _, ⟨hb a (by simp), rfl⟩,
        ⟨as, _, _, ⟨by simpa using hl, fun y hy => hb y (by simp [hy]), rfl⟩, ⟨rfl, rfl⟩, rfl⟩, by simp⟩

theorem opt {p : P α} {Q : α → Table → Prop} (h : Decodes p Q) (c : Bool) :
    Decodes (P.opt c p) fun x t => match x with
      | some a => c = true ∧ Q a t
      | none => c = false ∧ t = [] := by
  unfold P.opt
  cases c
  · refine cast (pure none) ?_
    intro x t _
    cases x <;> simp
  · refine cast (bind h fun a => pure (some a)) ?_
    intro x t _
    cases x <;> simp

end Decodes

/-- Applies the rules to a parser written with `do`, and the given facts to the parsers it calls. -/
macro "decode" ts:(ppSpace colGt term:max)* : tactic => `(tactic| repeat first
  | exact Decodes.uint _ | exact Decodes.pad _ | exact Decodes.bool | exact Decodes.sint8
  | exact Decodes.bytes _
  | exact Decodes.lift _ | exact Decodes.pure _ | exact Decodes.raise _ | exact Decodes.assert _ _
  $[| exact $ts]*
  | apply Decodes.bind | intro _)

/-- Flattens the relation found by `decode`. -/
macro "flat" "[" ts:Lean.Parser.Tactic.simpLemma,* "]" : tactic => `(tactic| simp only [exists_eq_left, exists_eq_right,
  exists_and_left, exists_and_right, exists_eq_right_right, and_assoc, ↓existsAndEq, true_and, and_true,
  List.cons_append, List.nil_append, List.append_nil, List.append_assoc, exists_const, validate_eq_ok,
  $ts,*])

/-! ### Enumerations -/

theorem ChannelBand.ofValue_ok {v : Int} {m : ChannelBand} : ofValue v = .ok m ↔ v = m.code := by
  unfold ofValue; split_ifs <;> cases m <;> simp_all [code]

theorem ChannelClass.ofValue_ok {v : Int} {m : ChannelClass} : ofValue v = .ok m ↔ v = m.value := by
  unfold ofValue; split_ifs <;> cases m <;> simp_all [value]

theorem ChannelCoding.ofValue_ok {v : Int} {m : ChannelCoding} : ofValue v = .ok m ↔ v = m.value := by
  unfold ofValue; split_ifs <;> cases m <;> simp_all [value]

theorem Bandwidth.ofValue_ok {v : Int} {m : Bandwidth} : ofValue v = .ok m ↔ v = m.code := by
  unfold ofValue; split_ifs <;> cases m <;> simp_all [code]

theorem ActionCondition.ofValue_ok {v : Int} {m : ActionCondition} : ofValue v = .ok m ↔ v = m.value := by
  unfold ofValue; split_ifs <;> cases m <;> simp_all [value]

theorem StorageClass.ofValue_ok {v : Int} {m : StorageClass} : ofValue v = .ok m ↔ v = m.value := by
  unfold ofValue; split_ifs <;> cases m <;> simp_all [value]

theorem IdType.ofValue_ok {v : Int} {m : IdType} : ofValue v = .ok m ↔ v = m.code := by
  unfold ofValue; split_ifs <;> cases m <;> simp_all [code]

theorem NlsMethod.ofValue_ok {v : Int} {m : NlsMethod} : ofValue v = .ok m ↔ v = m.code := by
  unfold ofValue; split_ifs <;> cases m <;> simp_all [code]

theorem ResponseMode.ofValue_ok {v : Int} {m : ResponseMode} : ofValue v = .ok m ↔ v = m.value := by
  unfold ofValue; split_ifs <;> cases m <;> simp_all [value]

theorem RetryMode.ofValue_ok {v : Int} {m : RetryMode} : ofValue v = .ok m ↔ v = m.value := by
  unfold ofValue; split_ifs <;> cases m <;> simp_all [value]

theorem QueryType.ofValue_ok {v : Int} {m : QueryType} : ofValue v = .ok m ↔ v = m.value := by
  unfold ofValue; split_ifs <;> cases m <;> simp_all [value]

theorem ArithComparisonType.ofValue_ok {v : Int} {m : ArithComparisonType} :
    ofValue v = .ok m ↔ v = m.value := by
  unfold ofValue; split_ifs <;> cases m <;> simp_all [value]

theorem EngineeringModeMode.ofValue_ok {v : Int} {m : EngineeringModeMode} :
    ofValue v = .ok m ↔ v = m.value := by
  unfold ofValue; split_ifs <;> cases m <;> simp_all [value]

theorem InterfaceType.ofValue_ok {v : Int} {m : InterfaceType} : ofValue v = .ok m ↔ v = m.value := by
  unfold ofValue; split_ifs <;> cases m <;> simp_all [value]

/-! ### Physical layer -/

theorem CT.decodes : Decodes CT.parse fun x t => x.Built ∧ t = x.table := by
  unfold CT.parse CT.new
  apply Decodes.cast
  · decode
  rintro x t -
  cases x
  flat [CT.Built, CT.new, CT.table, CT.mk.injEq]

theorem ChannelHeader.decodes : Decodes ChannelHeader.parse fun x t => t = x.table := by
  unfold ChannelHeader.parse
  apply Decodes.cast
  · decode
  rintro x t -
  cases x
  flat [ChannelHeader.table, ChannelHeader.mk.injEq, ChannelBand.ofValue_ok, ChannelClass.ofValue_ok, ChannelCoding.ofValue_ok]
  rfl

theorem ChannelID.decodes : Decodes ChannelID.parse fun x t => x.Built ∧ t = x.table := by
  unfold ChannelID.parse ChannelID.new
  apply Decodes.cast
  · decode ChannelHeader.decodes
  rintro x t -
  cases x
  flat [ChannelID.Built, ChannelID.new, ChannelID.table, ChannelID.mk.injEq]

theorem ChannelStatusIdentifier.decodes : Decodes ChannelStatusIdentifier.parse fun x t => x.Built ∧ t = x.table := by
  unfold ChannelStatusIdentifier.parse ChannelStatusIdentifier.new
  apply Decodes.cast
  · decode
  rintro x t -
  cases x
  flat [ChannelStatusIdentifier.Built, ChannelStatusIdentifier.new, ChannelStatusIdentifier.table, ChannelStatusIdentifier.mk.injEq, ChannelBand.ofValue_ok, Bandwidth.ofValue_ok]

theorem SubBand.decodes : Decodes SubBand.parse fun x t => x.Built ∧ t = x.table := by
  unfold SubBand.parse SubBand.new
  apply Decodes.cast
  · decode
  rintro x t -
  cases x
  flat [SubBand.Built, SubBand.new, SubBand.table, SubBand.mk.injEq]
  tauto

/-! ### File system -/

theorem FilePermissions.decodes : Decodes FilePermissions.parse fun x t => t = x.table := by
  unfold FilePermissions.parse
  apply Decodes.cast
  · decode
  rintro x t -
  cases x
  flat [FilePermissions.table, FilePermissions.mk.injEq]

theorem FileProperties.decodes : Decodes FileProperties.parse fun x t => t = x.table := by
  unfold FileProperties.parse
  apply Decodes.cast
  · decode
  rintro x t -
  cases x
  flat [FileProperties.table, FileProperties.mk.injEq, ActionCondition.ofValue_ok, StorageClass.ofValue_ok]
  rfl

theorem FileHeader.decodes : Decodes FileHeader.parse fun x t => x.Built ∧ t = x.table := by
  unfold FileHeader.parse FileHeader.new
  apply Decodes.cast
  · decode FilePermissions.decodes FileProperties.decodes
  rintro x t -
  cases x
  flat [FileHeader.Built, FileHeader.new, FileHeader.table, FileHeader.mk.injEq]

theorem FileHeaderOperand.decodes : Decodes FileHeaderOperand.parse fun x t => x.Built ∧ t = x.table := by
  unfold FileHeaderOperand.parse FileHeaderOperand.new
  apply Decodes.cast
  · decode FileHeader.decodes
  rintro x t -
  cases x
  flat [FileHeaderOperand.Built, FileHeaderOperand.new, FileHeaderOperand.table, FileHeaderOperand.mk.injEq]
  tauto

/-! ### Session layer -/

theorem QoS.decodes : Decodes QoS.parse fun x t => t = x.table := by
  unfold QoS.parse
  apply Decodes.cast
  · decode
  rintro x t -
  cases x
  flat [QoS.table, QoS.mk.injEq, RetryMode.ofValue_ok, ResponseMode.ofValue_ok]
  exact ⟨fun ⟨.NO, h⟩ => h, fun h => ⟨.NO, h⟩⟩

/-! ### ALP operands -/

theorem LoRaWANABP.decodes : Decodes LoRaWANABP.parse fun x t => t = x.table := by
  unfold LoRaWANABP.parse
  apply Decodes.cast
  · decode
  rintro x t -
  cases x
  flat [LoRaWANABP.table, LoRaWANABP.mk.injEq]

theorem LoRaWANOTAA.decodes : Decodes LoRaWANOTAA.parse fun x t => t = x.table := by
  unfold LoRaWANOTAA.parse
  apply Decodes.cast
  · decode
  rintro x t -
  cases x
  flat [LoRaWANOTAA.table, LoRaWANOTAA.mk.injEq]

/-! ### System files -/

theorem SubProfile.decodes : Decodes SubProfile.parse fun x t => x.Built ∧ t = x.table := by
  unfold SubProfile.parse SubProfile.new
  apply Decodes.cast
  · decode CT.decodes
  rintro x t -
  cases x
  flat [SubProfile.Built, SubProfile.new, SubProfile.table, SubProfile.mk.injEq]
  tauto

theorem UidFile.decodes : Decodes UidFile.parse fun x t => x.Built ∧ t = x.table := by
  unfold UidFile.parse UidFile.new
  apply Decodes.cast
  · decode
  rintro x t -
  cases x
  flat [UidFile.Built, UidFile.new, UidFile.table, UidFile.mk.injEq]

theorem VidFile.decodes : Decodes VidFile.parse fun x t => x.Built ∧ t = x.table := by
  unfold VidFile.parse VidFile.new
  apply Decodes.cast
  · decode
  rintro x t -
  cases x
  flat [VidFile.Built, VidFile.new, VidFile.table, VidFile.mk.injEq]

theorem EngineeringModeFile.decodes : Decodes EngineeringModeFile.parse fun x t => x.Built ∧ t = x.table := by
  unfold EngineeringModeFile.parse EngineeringModeFile.new
  apply Decodes.cast
  · decode ChannelID.decodes
  rintro x t -
  cases x
  flat [EngineeringModeFile.Built, EngineeringModeFile.new, EngineeringModeFile.table, EngineeringModeFile.mk.injEq, EngineeringModeMode.ofValue_ok]
  tauto

theorem DllConfigFile.decodes : Decodes DllConfigFile.parse fun x t => x.Built ∧ t = x.table := by
  unfold DllConfigFile.parse DllConfigFile.new
  apply Decodes.cast
  · decode
  rintro x t -
  cases x
  flat [DllConfigFile.Built, DllConfigFile.new, DllConfigFile.table, DllConfigFile.mk.injEq]

theorem DllStatusFile.decodes : Decodes DllStatusFile.parse fun x t => x.Built ∧ t = x.table := by
  unfold DllStatusFile.parse DllStatusFile.new
  apply Decodes.cast
  · decode ChannelHeader.decodes
  rintro x t -
  cases x
  flat [DllStatusFile.Built, DllStatusFile.new, DllStatusFile.table, DllStatusFile.mk.injEq]

end Verif
