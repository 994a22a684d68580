import Verif.Proofs.ResourceLaws
/-!
# Memory used by decoding

C52: a decoded value is not larger than the input it was read from.
C53: room reserved while decoding.
-/
set_option autoImplicit false
namespace Amqp
open Dec

/-! ## C52 -/

/-- A decoded variant has no more nodes and text bytes than bytes were read. -/
theorem C52_variant : Fits Variant.weight := fun env => covers_decVar env env.stackDepth

theorem C52_binary : Fits fun b : Binary => 1 + b.data.length := by
  intro env i r a h
  have h1 := shortest_binary env i r a h
  have h2 : 1 + a.data.length ≤ size a := le_varSize _
  rw [LawfulEnc.size_eq] at h2
  dsimp only; omega
theorem C52_string : Fits fun s : Str => 1 + s.bytes.length := by
  intro env i r a h
  have h1 := shortest_str env i r a h
  have h2 : 1 + a.bytes.length ≤ size a := le_varSize _
  rw [LawfulEnc.size_eq] at h2
  dsimp only; omega
theorem C52_symbol : Fits fun s : Symbol => 1 + s.str.bytes.length := by
  intro env i r a h
  have h1 := shortest_symbol env i r a h
  have h2 : 1 + a.str.bytes.length ≤ size a := le_varSize _
  rw [LawfulEnc.size_eq] at h2
  dsimp only; omega

theorem C52_list : Fits fun l : VList => 1 + total Variant.weight l.items := by
  refine fits_of_head fun env fmt i r l h => ?_
  obtain ⟨x, h0, rfl⟩ := map_eq_ok.1 h
  have := covers_list (fits_covers C52_variant env) env fmt _ _ _ h0
  dsimp only at this ⊢
  rw [weightList_eq] at this
  omega

/-- Maps of any keys and values that fit. -/
theorem C52_map {K V : Type} [HKey K] [DecodeF K] [DecodeF V] {wk : K → Nat} {wv : V → Nat}
    (hk : Fits wk) (hv : Fits wv) :
    Fits fun m : HMap K V => 1 + total (fun e => wk e.1 + wv e.2) m.entries := by
  refine fits_of_head fun env fmt i r m h => ?_
  obtain ⟨x, h0, rfl⟩ := map_eq_ok.1 h
  have := covers_map (fits_covers hk env) (fits_covers hv env) env fmt _ _ _ h0
  dsimp only at this ⊢; omega

theorem C52_vec_map :
    Fits fun m : VecVariantMap =>
      1 + total (fun e => 1 + e.1.bytes.length + e.2.weight) m.entries := by
  refine fits_of_head fun env fmt i r m h => ?_
  obtain ⟨r1, hd, h1, h2⟩ := bind_eq_ok.1 h
  obtain ⟨x, h3, rfl⟩ := map_eq_ok.1 h2
  have g1 := mapHeader_ok h1
  have := covers_slice (covers_decodeN (covers_pairs (fits_covers C52_string env)
    (fits_covers C52_variant env)) (hd.count / 2)) hd.size _ _ _ h3
  dsimp only at this ⊢; omega

/-- What one would want of arrays: as many bytes as their items weigh. -/
def C52_array_statement : Prop :=
  ∀ {α : Type} [DecodeF α] (w : α → Nat), Fits w → Fits fun v : Vec α => 1 + total w v.items

/-- Arrays whose items, read without a format code, fit.  Missing: items that take
no bytes, see `C52_violated`. -/
theorem C52_array_partial {α : Type} [DecodeF α] {w : α → Nat} (h : ItemFits w) :
    Fits fun v : Vec α => 1 + total w v.items := by
  refine fits_of_head fun env fmt i r v hd => ?_
  obtain ⟨r1, hd1, h1, h2⟩ := bind_eq_ok.1 hd
  obtain ⟨r2, c, h3, h4⟩ := bind_eq_ok.1 h2
  obtain ⟨r3, l, h5, h6⟩ := bind_eq_ok.1 h4
  injection h6 with h6; injection h6 with h7 h8
  subst h7 h8
  have g1 := (arrayHeader_count h1).2
  have g2 := Local.indexU8.length_le h3
  have g3 := covers_decodeN (w := w) (h env c) _ _ _ _ h5
  dsimp only; omega

/-- Items of variable width fit, with room to spare. -/
theorem C52_symbol_item : ItemFits fun s : Symbol => 1 + s.str.bytes.length := by
  intro env c i r a h
  have hp : Post (decF env c : Dec Symbol) fun i r a => 1 + a.str.bytes.length + r.length ≤ i.length := by
    refine Dec.Post.ite ?_ (Dec.Post.ite ?_ (Dec.Post.fail _)) <;> intro i r a h
    · obtain ⟨s, h1, rfl⟩ := map_eq_ok.1 h
      obtain ⟨r1, b, h2, h3⟩ := bind_eq_ok.1 h1
      obtain ⟨rfl, e⟩ := fromUtf8_ok h3
      obtain ⟨_, rfl⟩ := readBytesU8_ok h2
      simp [e]; omega
    · obtain ⟨s, h1, rfl⟩ := map_eq_ok.1 h
      obtain ⟨r1, b, h2, h3⟩ := bind_eq_ok.1 h1
      obtain ⟨rfl, e⟩ := fromUtf8_ok h3
      obtain ⟨_, rfl⟩ := readBytesU32_ok h2
      simp [e]; omega
  exact hp i r a h

theorem C52_symbols : Fits fun v : Vec Symbol => 1 + total (fun s => 1 + s.str.bytes.length) v.items :=
  C52_array_partial C52_symbol_item

/-- The ten bytes announcing `n` items with the code of a constant. -/
def zeroWidthArray (n : Nat) (code : UInt8) : Bytes := 0xf0 :: (beEnc 4 5 ++ beEnc 4 n) ++ [code]

theorem zeroWidthArray_length (n : Nat) (code : UInt8) : (zeroWidthArray n code).length = 10 := by
  simp [zeroWidthArray]

theorem decodeN_const {α : Type} {d : Dec α} {a : α} (h : ∀ i, d i = .ok (i, a)) :
    ∀ n i, decodeN d n i = .ok (i, List.replicate n a)
  | 0, _ => rfl
  | n + 1, i => by
    unfold decodeN
    rw [Dec.bind_ok (h i), Dec.bind_ok (decodeN_const h n i)]
    rfl

theorem zeroWidthArray_hdr (env : Env) (n : Nat) (hn : n < 2 ^ 32) (rest : Bytes) :
    decodeCompound32 env (beEnc 4 5 ++ beEnc 4 n ++ rest) = .ok (rest, ⟨1, n⟩) := by
  have h := (reads_compound32 env (n := 1) (k := n) (by decide) hn) rest
  exact h

/-- Ten bytes decode to any number of items. -/
theorem C52_violated_array (env : Env) (n : Nat) (hn : n < 2 ^ 32) :
    decode (Vec Bool) env (zeroWidthArray n 0x41) = .ok ([], ⟨List.replicate n true⟩) := by
  have h1 : decodeArrayHeader env 0xf0 (beEnc 4 5 ++ beEnc 4 n ++ [0x41]) = .ok ([0x41], ⟨1, n⟩) :=
    zeroWidthArray_hdr env n hn _
  show (decF env 0xf0 : Dec (Vec Bool)) (beEnc 4 5 ++ beEnc 4 n ++ [0x41]) = _
  show (decodeArrayHeader env 0xf0 >>= _) _ = _
  rw [Dec.bind_ok h1]
  show (indexU8 >>= _) [0x41] = _
  rw [Dec.bind_ok (show indexU8 [0x41] = .ok ([], 0x41) from rfl)]
  rw [Dec.bind_ok (decodeN_const (d := (decF env 0x41 : Dec Bool)) (a := true) (fun _ => rfl) n [])]
  rfl

theorem C52_violated : ¬ C52_array_statement := by
  intro h
  have hb : Fits fun _ : Bool => 1 := fun env i r a hd => by
    have := progress_decode (fun f => LawfulDec.loc env f) i r a hd
    dsimp only; omega
  have := h _ hb debugEnv _ _ _ (C52_violated_array debugEnv 10 (by decide))
  exact absurd this (by decide)

/-- A described list in 13 bytes of which one is left. -/
example : decode Variant debugEnv [0x00, 0x53, 29, 0xc0, 6, 2, 0xa1, 2, 104, 105, 0x40, 9] =
      .ok ([9], .described (.ulong 29) (.list [.string (.lit "hi"), .null])) ∧
    (Variant.described (.ulong 29) (.list [.string (.lit "hi"), .null])).weight = 7 := ⟨rfl, rfl⟩
example : decode (HMap Str Variant) debugEnv [0xc1, 5, 2, 0xa1, 1, 97, 0x43] =
    .ok ([], ⟨[(.lit "a", .uint 0)]⟩) := by rfl
example : decode (Vec Symbol) debugEnv [0xe0, 6, 2, 0xa3, 1, 97, 1, 98] =
    .ok ([], ⟨[⟨.lit "a"⟩, ⟨.lit "b"⟩]⟩) := by decide

/-! ## C53 -/

/-- The counting decoders decode as the others do. -/
theorem C53_same_result (env : Env) (i : Bytes) :
    (variantC env i).1 = decode Variant env i ∧
    (listC env i).1 = decode VList env i ∧
    (vecMapC env i).1 = decode VecVariantMap env i ∧
    (∀ {K : Type} [HKey K] [DecodeF K], (mapC (K := K) env i).1 = decode (HMap K Variant) env i) ∧
    (∀ {α : Type} [DecodeF α], (vecC (α := α) env i).1 = decode (Vec α) env i) := by
  have hv : Cost.erase (variantC env) = decode Variant env := erase_decVar env _
  refine ⟨congrFun hv i, ?_, ?_, ?_, ?_⟩
  · refine congrFun (f := Cost.erase (listC env)) ?_ i
    unfold listC decode
    rw [Cost.erase_bind]; congr 1; funext f
    rw [Cost.erase_bind, erase_decodeListWith, hv]
    show _ = VList.mk <$> _
    rw [map_eq_pure_bind]; rfl
  · refine congrFun (f := Cost.erase (vecMapC env)) ?_ i
    unfold vecMapC decode
    rw [Cost.erase_bind]; congr 1; funext f
    rw [Cost.erase_bind]
    show _ = (decodeMapHeader env f >>= _)
    congr 1; funext h
    rw [Cost.erase_bind, erase_withSlice, Cost.erase_reserve, erase_decodeN, Cost.erase_bind,
      map_eq_pure_bind]
    have : (fun a => Cost.erase (do
        let v ← variantC env
        pure (a, v))) = fun a => (do
        let v ← decode Variant env
        pure ((a, v) : Str × Variant)) := by
      funext a; rw [Cost.erase_bind, hv]; rfl
    rw [this]; rfl
  · intro K _ _
    refine congrFun (f := Cost.erase (mapC env)) ?_ i
    unfold mapC decode
    rw [Cost.erase_bind]; congr 1; funext f
    rw [Cost.erase_bind, erase_decodeMapWith, hv]
    show _ = HMap.mk <$> _
    rw [map_eq_pure_bind]; rfl
  · intro α _
    refine congrFun (f := Cost.erase (vecC env)) ?_ i
    unfold vecC decode decodeVecWithC
    rw [Cost.erase_bind]; congr 1; funext f
    rw [Cost.erase_bind, Cost.erase_bind]
    show _ = (decodeArrayHeader env f >>= fun h => indexU8 >>= fun c =>
      decodeN (decF env c) h.count >>= fun l => pure (⟨l⟩ : Vec α))
    rw [bind_assoc]; congr 1; funext h
    rw [Cost.erase_bind, bind_assoc]; congr 1; funext c
    rw [Cost.erase_reserve, erase_decodeN]
    rfl

/-- What one would want: room for no more elements than the input has bytes. -/
def C53_statement : Prop := ∀ env : Env, ReservesAtMost 1 (variantC env)

/-- If decoding succeeds, room was requested for fewer elements than bytes were
read.  Missing: failing decodes, see `C53_violated`, and arrays of items without
bytes, see `C53_violated_array`. -/
theorem C53_success_partial (env : Env) :
    ReservesUsed (variantC env) ∧ ReservesUsed (listC env) ∧ ReservesUsed (vecMapC env) ∧
    ReservesUsed (mapC (K := Str) env) ∧ ReservesUsed (mapC (K := Symbol) env) := by
  have hv : Cheap 1 0 (variantC env) := cheap_decVar env _
  have hk : ∀ {α : Type} [DecodeF α] [LawfulDec α], Cheap 1 0 (Cost.of (decode α env)) :=
    fun {α} _ _ => Cheap.of fun i r a h => progress_decode (fun f => LawfulDec.loc env f) i r a h
  have hp : ∀ {α : Type} (a : α), Cheap 0 0 (pure a : Cost α) := fun a => Cheap.ofLocal (Local.pure a)
  have fin : ∀ {α : Type} {c : Cost α}, Cheap 1 0 c → ReservesUsed c := fun h i r a hd => by
    have := h i r a hd
    omega
  refine ⟨fin hv, fin ?_, fin ?_, fin ?_, fin ?_⟩
  · exact cheap_fmt.bind fun f => (cheap_list hv env f).bind fun _ => hp _
  · exact cheap_fmt.bind fun f => (Cheap.ofLocal (Local.decodeMapHeader env f)).bind fun h =>
      (Cheap.slice ((Cheap.reserve (h.count / 2)).bind fun _ => Cheap.decodeN
        ((hk (α := Str)).bind fun _ => hv.bind fun _ => hp _) (h.count / 2)) _).mono
          (k' := 0) (e' := 0) (by omega) |>.bind fun _ => hp _
  · exact cheap_fmt.bind fun f => (cheap_map hk hv env f).bind fun _ => hp _
  · exact cheap_fmt.bind fun f => (cheap_map hk hv env f).bind fun _ => hp _

/-- Whatever the outcome, at most `2^32 - 1` elements per byte.  Missing: the factor. -/
theorem C53_bounded_partial (env : Env) :
    ReservesAtMost (2 ^ 32 - 1) (variantC env) ∧ ReservesAtMost (2 ^ 32 - 1) (listC env) ∧
    ReservesAtMost (2 ^ 32 - 1) (vecMapC env) ∧ ReservesAtMost (2 ^ 32 - 1) (mapC (K := Str) env) ∧
    ReservesAtMost (2 ^ 32 - 1) (mapC (K := Symbol) env) := by
  have hv : Capped maxCount 0 (variantC env) := capped_decVar env _
  have hk : ∀ {α : Type} [DecodeF α] [LawfulDec α], Capped maxCount 0 (Cost.of (decode α env)) :=
    fun {α} _ _ => Capped.of (local_decode fun f => LawfulDec.loc env f)
  have hf : Capped maxCount 0 (Cost.of formatCode) := Capped.of Local.readU8
  have hp : ∀ {α : Type} (a : α), Capped maxCount 0 (pure a : Cost α) := fun a => Capped.pure a
  refine ⟨fun i => hv.all i, fun i => ?_, fun i => ?_, fun i => ?_, fun i => ?_⟩
  · exact (hf.bind fun f => (capped_list hv env f).bind fun _ => hp _).all i
  · refine (hf.bind fun f => ?_ : Capped maxCount (0 + 0) (vecMapC env)).all i
    refine Capped.header (fun i r a h => ?_) fun i r a h => ?_
    · have := mapHeader_ok h; omega
    · have := mapHeader_count h
      exact (((Capped.slice ((Capped.reserve _).bind fun _ => Capped.decodeN
        (hk.bind fun _ => hv.bind fun _ => hp _) _) _)).bind fun _ => hp _).mono
        (by unfold maxCount; omega)
  · exact (hf.bind fun f => (capped_map hk hv env f).bind fun _ => hp _).all i
  · exact (hf.bind fun f => (capped_map hk hv env f).bind fun _ => hp _).all i

/-- Arrays whose items take at least one byte each. -/
theorem C53_array {α : Type} [DecodeF α] (h : ItemFits fun _ : α => 1) (env : Env) :
    ReservesUsed (vecC (α := α) env) := by
  have hi : ∀ c, Cheap 1 0 (Cost.of (decF env c : Dec α)) := fun c => Cheap.of fun i r a hd => by
    have := h env c i r a hd
    dsimp only at this; omega
  have : Cheap 1 0 (vecC (α := α) env) :=
    cheap_fmt.bind fun f => ((Cheap.ofLocal (Local.decodeArrayHeader env f)).bind fun h =>
      (Cheap.ofLocal Local.indexU8).bind fun c => ((Cheap.reserve h.count).bind fun _ =>
        (hi c).decodeN h.count).mono (k' := 0) (e' := 0) (by omega)).bind fun _ =>
          Cheap.ofLocal (Local.pure _)
  intro i r a hd
  have := this i r a hd
  omega

/-- Whatever the items, at most `2^32 - 1` per byte. -/
theorem C53_array_bounded {α : Type} [DecodeF α] [LawfulDec α] (env : Env) :
    ReservesAtMost (2 ^ 32 - 1) (vecC (α := α) env) := by
  have : Capped maxCount (0 + 0) (vecC (α := α) env) :=
    (Capped.of Local.readU8).bind fun f => (Capped.header (fun i r a h => by
      have := (arrayHeader_count h).2; omega) fun i r a h => ((Capped.of Local.indexU8).bind fun c =>
        (Capped.reserve a.count).bind fun _ =>
          Capped.decodeN (Capped.of (LawfulDec.loc env c)) _).mono
            (by have := (arrayHeader_count h).1; unfold maxCount; omega)).bind fun _ => Capped.pure _
  exact fun i => this.all i

example (env : Env) : ReservesUsed (vecC (α := Symbol) env) :=
  C53_array (fun env c i r a h => by
    have := C52_symbol_item env c i r a h
    dsimp only at this ⊢; omega) env

/-- The header of a list of `2^32 - 1` items. -/
def hugeList : Bytes := [0xd0, 0xff, 0xff, 0xff, 0xff, 0xff, 0xff, 0xff, 0xff]
/-- That header `k` times. -/
def hugeLists (k : Nat) : Bytes := (List.replicate k hugeList).flatten

theorem hugeLists_length (k : Nat) : (hugeLists k).length = 9 * k := by
  induction k with
  | zero => rfl
  | succ n ih =>
    unfold hugeLists at ih ⊢
    rw [List.replicate_succ, List.flatten_cons, List.length_append, ih]
    show 9 + 9 * n = _
    omega

theorem decodeNC_err {α : Type} {c : Cost α} {i : Bytes} {e : ParseError} {m n : Nat} (hn : n ≠ 0)
    (h : c i = (.err e, m)) : decodeNC c n i = (.err e, m) := by
  cases n with
  | zero => exact absurd rfl hn
  | succ n =>
    show (c >>= _) i = _
    rw [Cost.run_bind, h]

theorem listWithC_err {vc : Cost Variant} {env : Env} {f : UInt8} {i r : Bytes} {h : CompoundHeader}
    {e : ParseError} {m : Nat} (hd : decodeListHeader env f i = .ok (r, h)) (hn : h.count ≠ 0)
    (hv : vc r = (.err e, m)) : decodeListWithC vc env f i = (.err e, h.count + m) := by
  unfold decodeListWithC
  rw [Cost.bind_of, hd]
  dsimp only
  rw [Cost.bind_reserve, decodeNC_err hn hv]

theorem hugeLists_cost (env : Env) : ∀ k d, k ≤ d →
    decVarC env d (hugeLists k) = (.err (.incomplete 1), k * (2 ^ 32 - 1))
  | 0, _, _ => by
    show (Cost.of formatCode >>= _) [] = _
    rw [Cost.bind_of, Nat.zero_mul]; rfl
  | k + 1, 0, h => by omega
  | k + 1, d + 1, h => by
    have ih := hugeLists_cost env k d (by omega)
    have e : hugeLists (k + 1) =
        0xd0 :: (beEnc 4 (4294967291 + 4) ++ beEnc 4 4294967295 ++ hugeLists k) := rfl
    have hh : decodeListHeader env 0xd0
        (beEnc 4 (4294967291 + 4) ++ beEnc 4 4294967295 ++ hugeLists k) =
        .ok (hugeLists k, ⟨4294967291, 4294967295⟩) :=
      (reads_compound32 env (n := 4294967291) (k := 4294967295) (by decide) (by decide)) _
    have hs : decVariantC env (d + 1) 0xd0 = (decodeListWithC (decVarC env d) env 0xd0 >>= fun l =>
        pure (Variant.list l)) := rfl
    have hl : decodeListWithC (decVarC env d) env 0xd0
        (beEnc 4 (4294967291 + 4) ++ beEnc 4 4294967295 ++ hugeLists k) =
        (.err (.incomplete 1), (k + 1) * (2 ^ 32 - 1)) := by
      have e1 : (k + 1) * (2 ^ 32 - 1) = 4294967295 + k * (2 ^ 32 - 1) := by omega
      rw [e1]
      exact listWithC_err hh (show (4294967295 : Nat) ≠ 0 by omega) ih
    rw [e]
    show (Cost.of formatCode >>= fun f => decVariantC env (d + 1) f) _ = _
    rw [Cost.bind_of]
    show decVariantC env (d + 1) 0xd0 _ = _
    rw [hs, Cost.run_bind, hl]

/-- Nine bytes per level make the decoder request room for `2^32 - 1` variants per
level, as deep as the stack allows, before it notices that the input is short. -/
theorem C53_violated_nested (env : Env) (k : Nat) (hk : k ≤ env.stackDepth) :
    (hugeLists k).length = 9 * k ∧
    variantC env (hugeLists k) = (.err (.incomplete 1), k * (2 ^ 32 - 1)) :=
  ⟨hugeLists_length k, hugeLists_cost env k _ hk⟩

theorem C53_violated : ¬ C53_statement := by
  intro h
  have h1 := h debugEnv (hugeLists 1)
  rw [(C53_violated_nested debugEnv 1 (by decide)).2] at h1
  exact absurd h1 (by decide)

/-- A successful decode of ten bytes requests room for any number of items. -/
theorem C53_violated_array (env : Env) (n : Nat) (hn : n < 2 ^ 32) :
    vecC (α := Bool) env (zeroWidthArray n 0x41) = (.ok ([], ⟨List.replicate n true⟩), n) := by
  have h1 := (C53_same_result env (zeroWidthArray n 0x41)).2.2.2.2 (α := Bool)
  rw [C52_violated_array env n hn] at h1
  refine Prod.ext h1 ?_
  have h2 : decodeArrayHeader env 0xf0 (beEnc 4 5 ++ beEnc 4 n ++ [0x41]) = .ok ([0x41], ⟨1, n⟩) :=
    zeroWidthArray_hdr env n hn _
  have h3 : ∀ i, (decodeNC (Cost.of (decF env 0x41 : Dec Bool)) n i).2 = 0 := fun i => by
    have := (Capped.decodeN (Capped.of (m := 0) (LawfulDec.loc (α := Bool) env 0x41)) n).all i
    omega
  have h0 : vecC (α := Bool) env (zeroWidthArray n 0x41) =
      (decodeVecWithC (fun c => Cost.of (decF env c : Dec Bool)) env 0xf0 >>= fun l =>
        pure (⟨l⟩ : Vec Bool)) (beEnc 4 5 ++ beEnc 4 n ++ [0x41]) := by
    unfold vecC zeroWidthArray
    rw [Cost.bind_of]; rfl
  have h4 : decodeVecWithC (fun c => Cost.of (decF env c : Dec Bool)) env 0xf0
      (beEnc 4 5 ++ beEnc 4 n ++ [0x41]) =
      ((decodeNC (Cost.of (decF env 0x41 : Dec Bool)) n []).1, n) := by
    unfold decodeVecWithC
    rw [Cost.bind_of, h2]
    dsimp only
    rw [Cost.bind_of]
    show (Cost.reserve n >>= fun _ => decodeNC (Cost.of (decF env 0x41 : Dec Bool)) n) [] = _
    rw [Cost.bind_reserve, h3, Nat.add_zero]
  rw [h0, Cost.run_bind, h4]
  cases (decodeNC (Cost.of (decF env 0x41 : Dec Bool)) n []).1 <;> rfl

/-- Room for two variants and one entry, of nine bytes. -/
example : variantC debugEnv [0xc0, 7, 2, 0x40, 0xc1, 3, 2, 0x43, 0x44, 5] =
    (.ok ([5], .list [.null, .map [(.uint 0, .ulong 0)]]), 3) := by rfl
/-- Room for 255 variants that three bytes do not hold. -/
example : variantC debugEnv [0xc0, 2, 255] = (.err (.incomplete 1), 255) := by rfl

example : decode (Vec Bool) debugEnv (zeroWidthArray 1000 0x41) = .ok ([], ⟨List.replicate 1000 true⟩) :=
  C52_violated_array debugEnv 1000 (by decide)
example : (hugeLists 100).length = 900 ∧
    variantC debugEnv (hugeLists 100) = (.err (.incomplete 1), 100 * (2 ^ 32 - 1)) :=
  C53_violated_nested debugEnv 100 (by decide)

end Amqp
