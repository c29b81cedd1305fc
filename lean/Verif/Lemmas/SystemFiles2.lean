import Verif.Lemmas.SystemFiles

/-! Key files, factory settings, sizes, PHY status histories. -/

namespace Verif

/-! ### Keys -/

theorem land_mask (k p : Nat) :
    (Int.land (k : Int) ((0xff : Int) <<ₚ (p * 8))) >>ₚ (p * 8) = ((k / 256 ^ p % 256 : Nat) : Int) := by
  have e : (0xff : Int) <<ₚ (p * 8) = (((255 <<< (p * 8) : Nat)) : Int) := by
    simp [shl, Nat.shiftLeft_eq]
  rw [e]
  show ((k &&& (255 <<< (p * 8)) : Nat) : Int) / 2 ^ (p * 8) = _
  refine Eq.trans (b := (((k &&& (255 <<< (p * 8))) / 2 ^ (p * 8) : Nat) : Int))
    (by push_cast; rfl) ?_
  rw [← Nat.shiftRight_eq_div_pow, Nat.shiftRight_and_distrib, Nat.shiftLeft_shiftRight,
    Nat.shiftRight_eq_div_pow, show (255 : Nat) = 2 ^ 8 - 1 from rfl, Nat.and_two_pow_sub_one_eq_mod,
    Nat.mul_comm p 8, Nat.pow_mul]

/-- Little-endian bytes. -/
def leBytes (k n : Nat) : List UInt8 := (List.range k).map fun p => UInt8.ofNat (n / 256 ^ p % 256)

theorem keyBytes_emits {key : Int} (h : 0 ≤ key) : Emits (keyBytes key) (leBytes 16 key.toNat) := by
  obtain ⟨k, rfl⟩ := Int.eq_ofNat_of_zero_le h
  unfold keyBytes leBytes
  rw [Int.toNat_natCast]
  generalize List.range 16 = l
  induction l with
  | nil => exact Emits.nil
  | cons p l ih =>
    have hb : k / 256 ^ p % 256 < 256 := Nat.mod_lt _ (by decide)
    have : Emits (.int ((Int.land (k : Int) ((0xff : Int) <<ₚ (p * 8))) >>ₚ (p * 8)))
        [UInt8.ofNat (k / 256 ^ p % 256)] := by
      rw [land_mask]
      have := Emits.int (i := ((k / 256 ^ p % 256 : Nat) : Int)) (by omega) (by omega)
      rwa [Int.toNat_natCast] at this
    exact this.append ih

theorem leValue_leBytes (k n : Nat) : leValue (leBytes k n) = n % 256 ^ k := by
  unfold leBytes
  induction k generalizing n with
  | zero => simp [leValue, Nat.mod_one]
  | succ k ih =>
    rw [List.range_succ_eq_map, List.map_cons, List.map_map, leValue]
    have hb : n % 256 < 256 := Nat.mod_lt _ (by decide)
    have e : ((fun p => UInt8.ofNat (n / 256 ^ p % 256)) ∘ Nat.succ)
        = fun p => UInt8.ofNat (n / 256 / 256 ^ p % 256) := by
      funext p
      simp only [Function.comp, Nat.succ_eq_add_one, Nat.pow_succ']
      rw [Nat.div_div_eq_div_mul]
    rw [e, ih, pow_zero, Nat.div_one, ofNat_toNat_u8 hb, Nat.pow_succ', Nat.mod_mul]

theorem leBytes_length (k n : Nat) : (leBytes k n).length = k := by simp [leBytes]

theorem leValue_inj : ∀ {a b : List UInt8}, a.length = b.length → leValue a = leValue b → a = b
  | [], [], _, _ => rfl
  | x :: a, y :: b, hl, h => by
    have hx := x.toNat_lt
    have hy := y.toNat_lt
    simp only [leValue] at h
    have h1 : x.toNat = y.toNat := by omega
    have h2 : leValue a = leValue b := by omega
    rw [leValue_inj (by simpa using hl) h2, UInt8.toNat_inj.1 h1]

theorem zeros_emits (n : Nat) : Emits (.concat (List.replicate n (.int 0))) (List.replicate n 0) := by
  induction n with
  | zero => exact Emits.nil
  | succ n ih =>
    rw [List.replicate_succ, List.replicate_succ]
    exact (Emits.int (i := 0) (by omega) (by omega)).append ih

/-! ### Factory settings -/

/-- The generator serialises to `n` bytes after which the parser continues as `q`. -/
def CodecTo {α : Type} (g : Gen) (p q : P α) (n : Nat) : Prop :=
  ∃ bs, Emits g bs ∧ bs.length = n ∧
    ∀ pos rest, p ⟨pos, bytesToBits bs ++ rest⟩ = q ⟨pos + 8 * n, rest⟩

namespace CodecTo

theorem seq {α β : Type} {g h : Gen} {p : P α} {f : α → P β} {q : P β} {a : α} {n m : Nat}
    (h1 : Codec g p a n) (h2 : CodecTo h (f a) q m) : CodecTo (g ++ h) (p >>= f) q (n + m) := by
  obtain ⟨bs, e, l, r⟩ := h1
  obtain ⟨bs', e', l', r'⟩ := h2
  refine ⟨bs ++ bs', e.append e', by simp [l, l'], fun pos rest => ?_⟩
  rw [bytesToBits_append, List.append_assoc, P.bind_apply, r]
  simp only []
  rw [r', bytesToBits_length, l]
  congr 2
  ring

theorem last {α β : Type} {g : Gen} {p : P α} {f : α → P β} {a : α} {n : Nat}
    (h1 : Codec g p a n) : CodecTo g (p >>= f) (f a) n := by
  obtain ⟨bs, e, l, r⟩ := h1
  refine ⟨bs, e, l, fun pos rest => ?_⟩
  rw [P.bind_apply, r]
  simp only []
  rw [bytesToBits_length, l]

end CodecTo

namespace FactorySettingsFile

/-- The attributes that are accepted with values that cannot be serialised do fit a byte. -/
def Fits (f : FactorySettingsFile) : Prop :=
  0 ≤ f.gain ∧ 0 ≤ f.rssiOffset ∧ isByte f.preambleTolLo ∧ isByte f.preambleTolNormal ∧
  isByte f.preambleTolHi

theorem built_valid {f : FactorySettingsFile} (h : f.Built) : f.Valid := by
  obtain ⟨args, h⟩ := h
  unfold new at h
  cases hs : smoothing args.rssiSmoothing with
  | error e => rw [hs] at h; cases h
  | ok v =>
    rw [hs] at h
    obtain ⟨hv, rfl⟩ := validate_eq_ok.1 h
    exact hv

theorem gain_codec {i : Int} (h0 : 0 ≤ i) (h : i ≤ 127) : Codec (.int i) (P.sint 8) i 1 := by
  refine Codec.byte h0 (by omega) ?_
  have := Reads.sint8 i (by omega) h
  rwa [show i % 256 = i by omega] at this

theorem codecTo {f : FactorySettingsFile} (h : f.Valid) (hf : f.Fits) :
    CodecTo f.iter parse (P.lift (new f)) 56 := by
  obtain ⟨v1, v2, v3, v4, v5, v6, v7, v8, v9, v10, v11, v12, v13, v14, v15, v16, v17, v18, v19, v20,
    v21, v22⟩ := h
  obtain ⟨f1, f2, f3, f4, f5⟩ := hf
  simp only [iter, Gen.append_assoc]
  refine CodecTo.seq (m := 55) (gain_codec f1 v1.2) ?_
  refine CodecTo.seq (m := 51) (Codec.u32 v2) ?_
  refine CodecTo.seq (m := 47) (Codec.u32 v3) ?_
  refine CodecTo.seq (m := 43) (Codec.u32 v4) ?_
  refine CodecTo.seq (m := 39) (Codec.u32 v5) ?_
  refine CodecTo.seq (m := 35) (Codec.u32 v6) ?_
  refine CodecTo.seq (m := 31) (Codec.u32 v7) ?_
  refine CodecTo.seq (m := 27) (Codec.u32 v8) ?_
  refine CodecTo.seq (m := 23) (Codec.u32 v9) ?_
  refine CodecTo.seq (m := 19) (Codec.u32 v10) ?_
  refine CodecTo.seq (m := 18) (Codec.u8 v11) ?_
  refine CodecTo.seq (m := 17) (Codec.u8 v12) ?_
  refine CodecTo.seq (m := 16) (Codec.u8 v13) ?_
  refine CodecTo.seq (m := 15) (Codec.u8 v14) ?_
  refine CodecTo.seq (m := 14) (Codec.u8 v15) ?_
  refine CodecTo.seq (m := 13) (Codec.u8 v16) ?_
  refine CodecTo.seq (m := 12) (Codec.u8 f3) ?_
  refine CodecTo.seq (m := 11) (Codec.u8 f4) ?_
  refine CodecTo.seq (m := 10) (Codec.u8 f5) ?_
  refine CodecTo.seq (m := 9) (Codec.u8 v17) ?_
  refine CodecTo.seq (m := 8) (Codec.u8 ⟨f2, by omega⟩) ?_
  refine CodecTo.seq (m := 4) (Codec.u32 v19) ?_
  refine CodecTo.seq (m := 3) (Codec.u8 ⟨by omega, by omega⟩) ?_
  refine CodecTo.seq (m := 2) (Codec.u8 ⟨by omega, by omega⟩) ?_
  exact CodecTo.last (Codec.u16 v22)

theorem serIff {f : FactorySettingsFile} (h : f.Valid) : SerIff f.iter f.Fits := by
  obtain ⟨v1, v2, v3, v4, v5, v6, v7, v8, v9, v10, v11, v12, v13, v14, v15, v16, v17, v18, v19, v20,
    v21, v22⟩ := h
  have u32 : ∀ {i : Int}, isU32 i → SerIff (.ofBytes (packU 4 i)) True := fun hi => by
    obtain ⟨bs, e, -⟩ := Codec.u32 hi; exact SerIff.emits e
  have u16 : ∀ {i : Int}, isU16 i → SerIff (.ofBytes (packU 2 i)) True := fun hi => by
    obtain ⟨bs, e, -⟩ := Codec.u16 hi; exact SerIff.emits e
  simp only [iter, Gen.append_assoc]
  refine ((SerIff.int _).append <| (u32 v2).append <| (u32 v3).append <| (u32 v4).append <|
    (u32 v5).append <| (u32 v6).append <| (u32 v7).append <| (u32 v8).append <| (u32 v9).append <|
    (u32 v10).append <| (SerIff.int _).append <| (SerIff.int _).append <| (SerIff.int _).append <|
    (SerIff.int _).append <| (SerIff.int _).append <| (SerIff.int _).append <|
    (SerIff.int _).append <| (SerIff.int _).append <| (SerIff.int _).append <|
    (SerIff.int _).append <| (SerIff.int _).append <| (u32 v19).append <|
    (SerIff.int _).append <| (SerIff.int _).append <| (u16 v22)).congr ?_
  have b1 : isByte f.loraSF := ⟨by omega, by omega⟩
  have b2 : isByte f.gaussian := ⟨by omega, by omega⟩
  have b3 : isByte f.gain ↔ 0 ≤ f.gain := ⟨fun x => x.1, fun x => ⟨x, by omega⟩⟩
  have b4 : isByte f.rssiOffset ↔ 0 ≤ f.rssiOffset := ⟨fun x => x.1, fun x => ⟨x, by omega⟩⟩
  simp only [v11, v12, v13, v14, v15, v16, v17, b1, b2, b3, b4, Fits, true_and, and_true]
  tauto

theorem new_eq (f : FactorySettingsFile) (hv : f.Valid) (h : 2 ≤ f.rssiSmoothing) :
    new f = .ok { f with rssiSmoothing := (Nat.clog 2 f.rssiSmoothing.toNat : Int) - 1 } := by
  have hb : f.rssiSmoothing ≤ 255 := hv.2.2.2.2.2.2.2.2.2.2.2.2.2.2.2.2.1.2
  unfold new smoothing
  rw [if_neg (by omega)]
  have c1 : 1 ≤ Nat.clog 2 f.rssiSmoothing.toNat := Nat.clog_pos (by norm_num) (by omega)
  have c2 : Nat.clog 2 f.rssiSmoothing.toNat ≤ 8 :=
    Nat.clog_le_of_le_pow (by norm_num; omega)
  obtain ⟨v1, v2, v3, v4, v5, v6, v7, v8, v9, v10, v11, v12, v13, v14, v15, v16, v17, v18, v19, v20,
    v21, v22⟩ := hv
  exact validate_of ⟨v1, v2, v3, v4, v5, v6, v7, v8, v9, v10, v11, v12, v13, v14, v15, v16,
    ⟨by simp only; omega, by simp only; omega⟩, v18, v19, v20, v21, v22⟩

theorem new_error (f : FactorySettingsFile) (h : f.rssiSmoothing ≤ 1) :
    new f = .error .valueError := by
  unfold new smoothing
  split
  · rfl
  · next h0 =>
    have : f.rssiSmoothing = 1 := by omega
    rw [this]
    refine validate_eq_error.2 ⟨?_, rfl⟩
    rintro ⟨-, -, -, -, -, -, -, -, -, -, -, -, -, -, -, -, hb, -⟩
    have := hb.1
    simp at this

theorem clog_ne (x : Nat) (h : 2 ≤ x) : Nat.clog 2 x < x := by
  have : x < 2 ^ (x - 1) ∨ x = 2 ∨ x = 3 ∨ x = 4 := by
    by_cases h5 : 5 ≤ x
    · left
      obtain ⟨k, rfl⟩ : ∃ k, x = k + 5 := ⟨x - 5, by omega⟩
      have : ∀ k, k + 5 < 2 ^ (k + 4) := by
        intro k
        induction k with
        | zero => decide
        | succ k ih => rw [show k + 1 + 4 = (k + 4) + 1 from rfl, Nat.pow_succ]; omega
      exact this k
    · omega
  rcases this with h1 | rfl | rfl | rfl
  · have := Nat.clog_le_of_le_pow (Nat.le_of_lt h1); omega
  all_goals decide

end FactorySettingsFile
end Verif
