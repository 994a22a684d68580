import Verif.Protocol.CountedBase
import Verif.Proofs.Inversion
import Verif.Proofs.ResourceLaws
import Verif.Proofs.ListLaws
/-!
# Laws of the counting decoders
-/
set_option autoImplicit false
namespace Amqp
open Dec Cost

section
variable {α β : Type}

/-- `c` counts what `d` does: at most three calls per byte plus `k`, and, if it
succeeds, room for fewer elements than bytes read, with `u` to spare; no byte is gone
through more than twice. -/
structure Met (k u : Nat) (d : Dec α) (c : Price → Cost α) : Prop where
  same : ∀ p, erase (c p) = d
  calls : Capped 3 k (c Price.calls)
  room : Cheap u 0 (c Price.rooms)
  all : Capped maxCount 0 (c Price.rooms)
  bytes : Capped 2 0 (c Price.bytes)

namespace Met
variable {k k' u u' : Nat} {d : Dec α} {c : Price → Cost α}

theorem mono (h : Met k u d c) (hk : k ≤ k') (hu : u' ≤ u) : Met k' u' d c :=
  ⟨h.same, h.calls.mono hk, h.room.mono (by omega), h.all, h.bytes⟩

theorem of (hl : Local d) : Met 0 0 d fun _ => Cost.of d :=
  ⟨fun _ => rfl, Capped.of hl, Cheap.ofLocal hl, Capped.of hl, Capped.of hl⟩
theorem ofP (hl : Local d) (hp : Post d fun i r _ => r.length + u ≤ i.length) :
    Met 0 u d fun _ => Cost.of d :=
  ⟨fun _ => rfl, Capped.of hl, Cheap.of hp, Capped.of hl, Capped.of hl⟩
theorem pure (a : α) : Met 0 0 (Pure.pure a) fun _ => Pure.pure a := of (Local.pure a)
theorem fail (e : ParseError) : Met 0 0 (Dec.fail e : Dec α) fun _ => Cost.of (Dec.fail e) :=
  of (Local.fail e)

theorem call (h : Met k u d c) :
    Met (k + 1) u d fun p => (Cost.call p >>= fun _ => c p) where
  same p := by rw [← h.same p]; rfl
  calls := ((Capped.reserve 1).bind fun _ => h.calls).mono (by omega)
  room := ((Cheap.reserve 0).bind fun _ => h.room).mono (by omega)
  all := ((Capped.reserve 0).bind fun _ => h.all).mono (by omega)
  bytes := ((Capped.reserve 0).bind fun _ => h.bytes).mono (by omega)

theorem bind {f : α → Dec β} {g : α → Price → Cost β} (h : Met k u d c)
    (hf : ∀ a, Met k' u' (f a) (g a)) :
    Met (k + k') (u + u') (d >>= f) fun p => (c p >>= fun a => g a p) where
  same p := by
    rw [erase_bind, h.same]; congr 1; funext a; exact (hf a).same p
  calls := h.calls.bind fun a => (hf a).calls
  room := h.room.bind fun a => (hf a).room
  all := h.all.bind fun a => (hf a).all
  bytes := h.bytes.bind fun a => (hf a).bytes

theorem map (f : α → β) (h : Met k u d c) :
    Met k u (f <$> d) fun p => (c p >>= fun a => Pure.pure (f a)) := by
  have := h.bind fun a => Met.pure (f a)
  rw [← map_eq_pure_bind] at this
  exact this

theorem ite {q : Prop} [Decidable q] {d' : Dec α} {c' : Price → Cost α} (h : Met k u d c)
    (h' : Met k u d' c') : Met k u (if q then d else d') fun p => if q then c p else c' p := by
  split <;> assumption

/-- A byte read pays for three calls. -/
theorem byte {d : Dec β} {f : β → Dec α} {g : β → Price → Cost α} (hl : Local d) (hp : Progress d)
    (hf : ∀ b, Met 3 u (f b) (g b)) :
    Met 0 (u + 1) (d >>= f) fun p => (Cost.of d >>= fun a => g a p) where
  same p := by
    rw [erase_bind, erase_of]; congr 1; funext a; exact (hf a).same p
  calls := Capped.header hp fun i r a _ => (hf a).calls
  room := ((Cheap.of (k := 1) fun i r a h => by have := hp i r a h; omega).bind
    fun a => (hf a).room).mono (by omega)
  all := (Capped.of hl).bind fun a => (hf a).all
  bytes := (Capped.of hl).bind fun a => (hf a).bytes

end Met

theorem met_leaf {d : Dec α} (hl : Local d) : Met 1 0 d fun p => leafC p d := (Met.of hl).call

theorem progress_formatCode : Progress formatCode := fun i r b h => by
  have e : i = b :: r := readU8_ok h
  simp [e]

/-- The counting decoder of a type keeps the limits. -/
class Metered (α : Type) [DecodeF α] [DecodeC α] : Prop where
  met : ∀ env fmt, Met 2 0 (decF (α := α) env fmt) fun p => decFC p env fmt
/-- The same with the format code. -/
class MeteredD (α : Type) [DecodeF α] [DecodeC α] : Prop where
  met : ∀ env, Met 0 1 (decode α env) fun p => decodeC α p env

theorem met_decode [DecodeF α] [DecodeC α]
    (h : ∀ env fmt, Met 3 0 (decF (α := α) env fmt) fun p => decFC p env fmt) (env : Env) :
    Met 0 1 (decode α env) fun p => decodeC α p env :=
  Met.byte Local.readU8 progress_formatCode fun b => h env b

instance [DecodeF α] [DecodeC α] [Metered α] : MeteredD α :=
  ⟨met_decode fun env fmt => (Metered.met env fmt).mono (by omega) (by omega)⟩

/-- Decoders that make one call and request no room. -/
class MeteredLeaf (α : Type) [DecodeF α] [DecodeC α] : Prop where
  met : ∀ env fmt, Met 1 0 (decF (α := α) env fmt) fun p => decFC p env fmt
  calls : ∀ env fmt i, (decFC (α := α) Price.calls env fmt i).2 = 1
  rooms : ∀ env fmt, decFC (α := α) Price.rooms env fmt = Cost.of (decF env fmt)

instance [DecodeF α] [DecodeC α] [MeteredLeaf α] : Metered α :=
  ⟨fun env fmt => (MeteredLeaf.met env fmt).mono (by omega) (by omega)⟩

theorem leafC_calls {d : Dec α} (i : Bytes) : (leafC Price.calls d i).2 = 1 := rfl
theorem leafC_rooms (d : Dec α) : leafC Price.rooms d = Cost.of d := by
  funext i; exact Prod.ext rfl (Nat.zero_add 0)

theorem metered_leaf [DecodeF α] [DecodeC α] [LawfulDec α]
    (h : ∀ p env fmt, decFC p env fmt = leafC p (decF (α := α) env fmt)) : MeteredLeaf α where
  met env fmt := by
    simp only [h]
    exact met_leaf (LawfulDec.loc env fmt)
  calls env fmt i := by rw [h]; rfl
  rooms env fmt := by rw [h]; exact leafC_rooms _

theorem of_map (f : α → β) (d : Dec α) :
    (Cost.of d >>= fun a => Pure.pure (f a)) = Cost.of (f <$> d) := by
  funext i
  rw [Cost.bind_of, map_eq_pure_bind]
  unfold Cost.of
  rw [Dec.run_bind]
  cases d i <;> rfl

/-- Data that is read, and is gone through. -/
def DataRead (d : Dec Bytes) : Prop :=
  Local d ∧ ∀ i r b, d i = .ok (r, b) → r.length + b.length ≤ i.length

theorem data_u8 : DataRead readBytesU8 := ⟨Local.readBytesU8, fun i r b h => by
  obtain ⟨_, rfl⟩ := readBytesU8_ok h
  simp; omega⟩
theorem data_u32 : DataRead readBytesU32 := ⟨Local.readBytesU32, fun i r b h => by
  obtain ⟨_, rfl⟩ := readBytesU32_ok h
  simp; omega⟩

theorem copyC_run (p : Price) (d : Dec Bytes) (i : Bytes) :
    copyC p d i = (d i, match d i with | .ok (_, b) => b.length * p.byte | _ => 0) := by
  unfold copyC Cost.bytes
  rw [Cost.bind_of]
  cases h : d i with
  | ok q => exact Prod.ext rfl (by show q.2.length * p.byte + 0 = _; rfl)
  | err e => rfl
  | panic q => rfl

theorem textC_run (p : Price) (d : Dec Bytes) (i : Bytes) :
    textC p d i = ((d >>= fromUtf8) i, match d i with
      | .ok (r, b) => (match fromUtf8 b r with
        | .ok _ => 2 * (b.length * p.byte)
        | _ => b.length * p.byte)
      | _ => 0) := by
  unfold textC Cost.bytes
  rw [Cost.bind_of, Dec.run_bind]
  cases h : d i with
  | ok q =>
    dsimp only
    rw [Cost.bind_reserve, Cost.bind_of]
    cases h2 : fromUtf8 q.2 q.1 with
    | ok w => 
      refine Prod.ext rfl ?_
      show q.2.length * p.byte + (q.2.length * p.byte + 0) = 2 * (q.2.length * p.byte)
      omega
    | err e => rfl
    | panic w => rfl
  | err e => rfl
  | panic q => rfl

theorem capped_copy {d : Dec Bytes} (h : DataRead d) {m : Nat} {p : Price} (hm : p.byte ≤ m) :
    Capped m 0 (copyC p d) := by
  have key : ∀ i r b, d i = .ok (r, b) → b.length * p.byte + m * r.length ≤ m * i.length := by
    intro i r b hd
    have h1 := Nat.mul_le_mul_left m (h.2 i r b hd)
    have h2 := Nat.mul_le_mul_left b.length hm
    rw [Nat.mul_add, Nat.mul_comm m b.length] at h1
    omega
  constructor
  · intro i
    rw [copyC_run]
    cases hd : d i with
    | ok q => obtain ⟨r, b⟩ := q; have := key _ _ _ hd; show b.length * p.byte ≤ _; omega
    | err e => exact Nat.zero_le _
    | panic q => exact Nat.zero_le _
  · intro i r b hd
    rw [copyC_run] at hd ⊢
    dsimp only at hd ⊢
    rw [hd]
    exact key _ _ _ hd

theorem capped_text {d : Dec Bytes} (h : DataRead d) {m : Nat} {p : Price} (hm : 2 * p.byte ≤ m) :
    Capped m 0 (textC p d) := by
  have key : ∀ i r b, d i = .ok (r, b) → 2 * (b.length * p.byte) + m * r.length ≤ m * i.length := by
    intro i r b hd
    have h1 := Nat.mul_le_mul_left m (h.2 i r b hd)
    have h2 := Nat.mul_le_mul_left b.length hm
    rw [Nat.mul_add, Nat.mul_comm m b.length] at h1
    rw [Nat.mul_left_comm] at h2
    omega
  constructor
  · intro i
    rw [textC_run]
    cases hd : d i with
    | ok q =>
      obtain ⟨r, b⟩ := q
      have := key _ _ _ hd
      dsimp only
      split
      · show 2 * (b.length * p.byte) ≤ _; omega
      · show b.length * p.byte ≤ _; omega
    | err e => exact Nat.zero_le _
    | panic q => exact Nat.zero_le _
  · intro i r s hd
    rw [textC_run] at hd ⊢
    obtain ⟨r1, b, h1, h2⟩ := bind_eq_ok.1 hd
    obtain ⟨rfl, _⟩ := fromUtf8_ok h2
    dsimp only
    rw [h1]
    dsimp only
    rw [h2]
    exact key _ _ _ h1

theorem copyC_free {p : Price} (hp : p.byte = 0) (d : Dec Bytes) : copyC p d = Cost.of d := by
  funext i
  rw [copyC_run, hp]
  unfold Cost.of
  refine Prod.ext rfl ?_
  dsimp only
  split <;> rfl
theorem textC_free {p : Price} (hp : p.byte = 0) (d : Dec Bytes) :
    textC p d = Cost.of (d >>= fromUtf8) := by
  funext i
  rw [textC_run, hp]
  unfold Cost.of
  refine Prod.ext rfl ?_
  dsimp only
  split
  · split <;> rfl
  · rfl

theorem met_copy {d : Dec Bytes} (h : DataRead d) : Met 0 0 d fun p => copyC p d where
  same p := by funext i; show (copyC p d i).1 = _; rw [copyC_run]
  calls := capped_copy h (by decide)
  room := by rw [copyC_free rfl]; exact Cheap.ofLocal h.1
  all := capped_copy h (by decide)
  bytes := capped_copy h (by decide)

theorem met_text {d : Dec Bytes} (h : DataRead d) : Met 0 0 (d >>= fromUtf8) fun p => textC p d where
  same p := by funext i; show (textC p d i).1 = _; rw [textC_run]
  calls := capped_text h (by decide)
  room := by rw [textC_free rfl]; exact Cheap.ofLocal (h.1.bind fun b => Local.fromUtf8 b)
  all := capped_text h (by decide)
  bytes := capped_text h (by decide)

/-- A call, and then one of two ways to read data. -/
theorem metered_data [DecodeF α] [DecodeC α] (c1 c2 : UInt8) {d1 d2 : Dec α}
    {f1 f2 : Price → Cost α}
    (h1 : Met 0 0 d1 f1) (h2 : Met 0 0 d2 f2)
    (hd : ∀ env fmt, decF (α := α) env fmt = if fmt = c1 then d1 else if fmt = c2 then d2 else
      Dec.fail (.invalidFormatCode fmt))
    (hc : ∀ p env fmt, decFC (α := α) p env fmt = (Cost.call p >>= fun _ =>
      if fmt = c1 then f1 p else if fmt = c2 then f2 p else
      Cost.of (Dec.fail (.invalidFormatCode fmt))))
    (e1 : ∀ p : Price, p.byte = 0 → f1 p = Cost.of d1)
    (e2 : ∀ p : Price, p.byte = 0 → f2 p = Cost.of d2) : MeteredLeaf α where
  met env fmt := by
    simp only [hd, hc]
    exact (h1.ite (h2.ite (Met.fail _))).call
  calls env fmt i := by
    rw [hc, e1 _ rfl, e2 _ rfl]
    split
    · rfl
    · split <;> rfl
  rooms env fmt := by
    rw [hc, hd, e1 _ rfl, e2 _ rfl]
    funext i
    unfold Cost.call
    rw [Cost.bind_reserve]
    split
    · exact Prod.ext rfl (Nat.zero_add 0)
    · split <;> exact Prod.ext rfl (Nat.zero_add 0)
end

instance : MeteredLeaf Bool := metered_leaf fun _ _ _ => rfl
instance : MeteredLeaf UInt8 := metered_leaf fun _ _ _ => rfl
instance : MeteredLeaf UInt16 := metered_leaf fun _ _ _ => rfl
instance : MeteredLeaf UInt32 := metered_leaf fun _ _ _ => rfl
instance : MeteredLeaf UInt64 := metered_leaf fun _ _ _ => rfl
instance : MeteredLeaf Int8 := metered_leaf fun _ _ _ => rfl
instance : MeteredLeaf Int16 := metered_leaf fun _ _ _ => rfl
instance : MeteredLeaf Int32 := metered_leaf fun _ _ _ => rfl
instance : MeteredLeaf Int64 := metered_leaf fun _ _ _ => rfl
instance : MeteredLeaf F32 := metered_leaf fun _ _ _ => rfl
instance : MeteredLeaf F64 := metered_leaf fun _ _ _ => rfl
instance : MeteredLeaf Char := metered_leaf fun _ _ _ => rfl
instance : MeteredLeaf DateTime := metered_leaf fun _ _ _ => rfl
instance : MeteredLeaf Uuid := metered_leaf fun _ _ _ => rfl
instance : MeteredLeaf Binary := metered_data FC.binary8 FC.binary32
  ((met_copy data_u8).map Binary.mk) ((met_copy data_u32).map Binary.mk) (fun _ _ => rfl)
  (fun _ _ _ => rfl) (fun p hp => by rw [copyC_free hp]; exact of_map _ _)
  (fun p hp => by rw [copyC_free hp]; exact of_map _ _)
instance : MeteredLeaf RStr := metered_data FC.string8 FC.string32
  (met_text data_u8) (met_text data_u32) (fun _ _ => rfl)
  (fun _ _ _ => rfl) (fun p hp => textC_free hp _) (fun p hp => textC_free hp _)
instance : MeteredLeaf Symbol := metered_data FC.symbol8 FC.symbol32
  ((met_text data_u8).map Symbol.mk) ((met_text data_u32).map Symbol.mk) (fun _ _ => rfl)
  (fun _ _ _ => rfl) (fun p hp => by rw [textC_free hp]; exact of_map _ _)
  (fun p hp => by rw [textC_free hp]; exact of_map _ _)

section
variable {α β : Type}

instance [DecodeF α] [DecodeC α] [Metered α] : MeteredD (Option α) :=
  ⟨met_decode fun env fmt => ((((Met.pure none).mono (by omega) (by omega)).ite
    ((Metered.met env fmt).map some)).call)⟩

instance : Metered Descriptor := ⟨fun env fmt => by
  have h1 : Met 1 0 (decF (α := UInt64) env fmt) fun p => decFC p env fmt :=
    MeteredLeaf.met env fmt
  have h2 : Met 1 0 (decF (α := Symbol) env fmt) fun p => decFC p env fmt :=
    MeteredLeaf.met env fmt
  have := (((h1.map Descriptor.ulong).ite (q := fmt = FC.smallUlong ∨ fmt = FC.ulong)
    ((h2.map Descriptor.symbol).ite (q := fmt = FC.symbol8 ∨ fmt = FC.symbol32)
      ((Met.fail (.invalidFormatCode fmt)).mono (by omega) (by omega)))).call)
  have e : (decF env fmt : Dec Descriptor) =
      if fmt = FC.smallUlong ∨ fmt = FC.ulong then Descriptor.ulong <$> decF env fmt
      else if fmt = FC.symbol8 ∨ fmt = FC.symbol32 then Descriptor.symbol <$> decF env fmt
      else Dec.fail (.invalidFormatCode fmt) := by
    show (if _ then _ else _) = _
    by_cases a1 : fmt = FC.smallUlong
    · simp [a1]
    by_cases a2 : fmt = FC.ulong
    · simp [a2]
    by_cases a3 : fmt = FC.symbol8
    · subst a3; rfl
    simp [a1, a2, a3]
  rw [e]
  exact this⟩

/-! ## Collections -/

theorem Met.slice {k u : Nat} {d : Dec α} {c : Price → Cost α} (h : Met k u d c) (n : Nat) :
    Met k u (withSlice n d) fun p => withSliceC n (c p) :=
  ⟨fun p => by rw [erase_withSlice, h.same], h.calls.slice n, h.room.slice n, h.all.slice n,
    h.bytes.slice n⟩

/-- Decoders of which enough bytes are read for the elements for which room was
requested. -/
theorem Met.rooms {k n u : Nat} {d : Dec α} {c : Price → Cost α} (hs : ∀ p, erase (c p) = d)
    (hc : Capped 3 k (c Price.calls)) (hr : Cheap (n + u) 0 (c Price.rooms))
    (hb : Capped 2 0 (c Price.bytes)) :
    (∀ p, erase (Cost.room p n >>= fun _ => c p) = d) ∧
    Capped 3 k (Cost.room Price.calls n >>= fun _ => c Price.calls) ∧
    Cheap u 0 (Cost.room Price.rooms n >>= fun _ => c Price.rooms) ∧
    Capped 2 0 (Cost.room Price.bytes n >>= fun _ => c Price.bytes) := by
  refine ⟨fun p => by rw [← hs p]; rfl, ?_, ?_, ?_⟩
  · have : n * Price.calls.room = 0 := Nat.mul_zero n
    unfold Cost.room; rw [this]
    exact ((Capped.reserve 0).bind fun _ => hc).mono (by omega)
  · have : n * Price.rooms.room = n := Nat.mul_one n
    unfold Cost.room; rw [this]
    exact ((Cheap.reserve n).bind fun _ => hr).mono (by omega)
  · have : n * Price.bytes.room = 0 := Nat.mul_zero n
    unfold Cost.room; rw [this]
    exact ((Capped.reserve 0).bind fun _ => hb).mono (by omega)

theorem capped_rooms {n : Nat} {c : Cost α} (hn : n < 2 ^ 32) (hc : Capped maxCount 0 c) :
    Capped maxCount maxCount (Cost.room Price.rooms n >>= fun _ => c) := by
  have : n * Price.rooms.room = n := Nat.mul_one n
  unfold Cost.room; rw [this]
  exact ((Capped.reserve n).bind fun _ => hc).mono (by unfold maxCount; omega)

/-- A header, and then room for the elements it announces. -/
theorem met_header {k u : Nat} {hd : Dec CompoundHeader} {f : CompoundHeader → Dec α}
    {g : CompoundHeader → Price → Cost α} (hl : Local hd) (hp : Progress hd)
    (hs : ∀ h p, erase (g h p) = f h) (hk : k ≤ 3) (hc : ∀ h, Capped 3 k (g h Price.calls))
    (hr : ∀ h, Cheap u 0 (g h Price.rooms))
    (ha : ∀ i r h, hd i = .ok (r, h) → Capped maxCount maxCount (g h Price.rooms))
    (hb : ∀ h, Capped 2 0 (g h Price.bytes)) :
    Met 0 u (hd >>= f) fun p => (Cost.of hd >>= fun h => g h p) where
  same p := by rw [erase_bind, erase_of]; congr 1; funext h; exact hs h p
  calls := Capped.header hp fun i r a _ => (hc a).mono hk
  room := ((Cheap.ofLocal hl).bind fun a => hr a).mono (by omega)
  all := Capped.header hp fun i r a h => ha i r a h
  bytes := (Capped.of hl).bind fun a => hb a

theorem progress_mapHeader (env : Env) (fmt : UInt8) : Progress (decodeMapHeader env fmt) :=
  fun i r a h => by have := mapHeader_ok h; omega
theorem progress_arrayHeader (env : Env) (fmt : UInt8) : Progress (decodeArrayHeader env fmt) :=
  fun i r a h => by have := (arrayHeader_count h).2; omega

theorem met_mapWith {K V : Type} [HKey K] {kd : Dec K} {vd : Dec V} {kc : Price → Cost K}
    {vc : Price → Cost V} (hk : Met 0 1 kd kc) (hv : Met 0 1 vd vc) (env : Env) (fmt : UInt8) :
    Met 1 0 (decodeMapWith kd vd env fmt) fun p => decodeMapP p (kc p) (vc p) env fmt := by
  refine Met.call (c := fun p => (Cost.of (decodeMapHeader env fmt) >>= fun h =>
    withSliceC h.size (Cost.room p (h.count / 2) >>= fun _ =>
      mapLoopC (kc p) (vc p) (h.count / 2) []))) ?_
  have hr := fun h : CompoundHeader => Met.rooms (k := 0) (u := 0) (n := h.count / 2)
    (d := mapLoop kd vd (h.count / 2) []) (c := fun p => mapLoopC (kc p) (vc p) (h.count / 2) [])
    (fun p => by rw [erase_mapLoop, hk.same, hv.same])
    (Capped.mapLoop hk.calls hv.calls _ _)
    ((Cheap.mapLoop hk.room hv.room _ _).mono (by omega))
    (Capped.mapLoop hk.bytes hv.bytes _ _)
  refine met_header (k := 0) (Local.decodeMapHeader env fmt) (progress_mapHeader env fmt)
    (fun h p => ?_) (by omega) (fun h => (hr h).2.1.slice _) (fun h => (hr h).2.2.1.slice _)
    (fun i r h hd => ?_) (fun h => (hr h).2.2.2.slice _)
  · rw [erase_withSlice, (hr h).1]
  · have := mapHeader_count hd
    exact (capped_rooms (by omega) (Capped.mapLoop hk.all hv.all _ _)).slice _

instance {K V : Type} [HKey K] [DecodeF K] [DecodeF V] [DecodeC K] [DecodeC V] [MeteredD K]
    [MeteredD V] : Metered (HMap K V) :=
  ⟨fun env fmt => ((met_mapWith (MeteredD.met env) (MeteredD.met env) env fmt).map HMap.mk).mono
    (by omega) (by omega)⟩

theorem met_decodeN {u : Nat} {d : Dec α} {c : Price → Cost α} (h : Met 0 u d c) (n : Nat) :
    Met 0 (u * n) (decodeN d n) fun p => decodeNC (c p) n :=
  ⟨fun p => by rw [erase_decodeN, h.same], h.calls.decodeN n, h.room.decodeN n, h.all.decodeN n,
    h.bytes.decodeN n⟩

theorem met_listWith {vd : Dec Variant} {vc : Price → Cost Variant} (hv : Met 0 1 vd vc) (env : Env)
    (fmt : UInt8) :
    Met 1 0 (decodeListWith vd env fmt) fun p => decodeListP p (vc p) env fmt := by
  refine Met.call (c := fun p => (Cost.of (decodeListHeader env fmt) >>= fun h =>
    Cost.room p h.count >>= fun _ => decodeNC (vc p) h.count)) ?_
  have hm := fun h : CompoundHeader => met_decodeN hv h.count
  have hr := fun h : CompoundHeader => Met.rooms (k := 0) (u := 0) (n := h.count)
    (hm h).same (hm h).calls ((hm h).room.mono (by omega)) (hm h).bytes
  by_cases h0 : fmt = FC.list0
  · subst h0
    have hl := Local.decodeListHeader env FC.list0
    have hz : ∀ i r h, decodeListHeader env FC.list0 i = .ok (r, h) → h.count = 0 := by
      intro i r h hd
      injection hd with hd; injection hd with _ h2; subst h2; rfl
    refine ⟨fun p => ?_, ?_, ?_, ?_, ?_⟩
    · rw [erase_bind, erase_of]; congr 1; funext h; exact (hr h).1 p
    · exact ((Capped.of hl).bind fun h => (hr h).2.1)
    · exact ((Cheap.ofLocal hl).bind fun h => (hr h).2.2.1).mono (by omega)
    · have e : (Cost.of (decodeListHeader env FC.list0) >>= fun h =>
          Cost.room Price.rooms h.count >>= fun _ => decodeNC (vc Price.rooms) h.count) =
          Cost.of (Pure.pure []) := by
        funext i; rfl
      rw [e]
      exact Capped.of (Local.pure _)
    · exact ((Capped.of hl).bind fun h => (hr h).2.2.2)
  · refine met_header (k := 0) (Local.decodeListHeader env fmt) (fun i r a h => ?_)
      (fun h p => (hr h).1 p) (by omega) (fun h => (hr h).2.1) (fun h => (hr h).2.2.1)
      (fun i r h hd => capped_rooms (listHeader_count hd) (hm h).all) (fun h => (hr h).2.2.2)
    rcases listHeader_ok h with h1 | ⟨rfl, h1⟩
    · omega
    · exfalso
      unfold decodeListHeader at h
      rw [if_neg h0] at h
      split at h
      · have := compound8_ok h; omega
      · split at h
        · have := compound32_ok h; omega
        · cases h

theorem decVariant_binary {env : Env} {d : Nat} {fmt : UInt8}
    (h : fmt = FC.binary8 ∨ fmt = FC.binary32) :
    decVariant env (d + 1) fmt = Variant.binary <$> decF env fmt := by
  rcases h with rfl | rfl <;> rfl
theorem decVariant_string {env : Env} {d : Nat} {fmt : UInt8}
    (h : fmt = FC.string8 ∨ fmt = FC.string32) :
    decVariant env (d + 1) fmt = Variant.string <$> decF env fmt := by
  rcases h with rfl | rfl <;> rfl
theorem decVariant_symbol {env : Env} {d : Nat} {fmt : UInt8}
    (h : fmt = FC.symbol8 ∨ fmt = FC.symbol32) :
    decVariant env (d + 1) fmt = Variant.symbol <$> decF env fmt := by
  rcases h with rfl | rfl <;> rfl

theorem met_variant (env : Env) : ∀ d fmt, Met 2 0 (decVariant env d fmt) fun p =>
    decVariantP p env d fmt
  | 0, _ => (met_leaf (Local.abort _)).mono (by omega) (by omega)
  | d + 1, fmt => by
    have hv : Met 0 1 (decVar env d) fun p => (Cost.of formatCode >>= fun f =>
        decVariantP p env d f) :=
      Met.byte Local.readU8 progress_formatCode fun b =>
        (met_variant env d b).mono (by omega) (by omega)
    have hl := local_variant env (d + 1) fmt
    refine Met.call (k := 1) (c := fun p =>
      if fmt = FC.list8 ∨ fmt = FC.list32 then
        decodeListP p (Cost.of formatCode >>= fun f => decVariantP p env d f) env fmt >>= fun l =>
          Pure.pure (.list l)
      else if fmt = FC.map8 ∨ fmt = FC.map32 then
        decodeMapP p (Cost.of formatCode >>= fun f => decVariantP p env d f)
          (Cost.of formatCode >>= fun f => decVariantP p env d f) env fmt >>= fun l =>
          Pure.pure (.map l)
      else if fmt = FC.described then
        decodeC Descriptor p env >>= fun ds =>
          (Cost.of formatCode >>= fun f => decVariantP p env d f) >>= fun v =>
            Pure.pure (.described ds v)
      else if fmt = FC.binary8 ∨ fmt = FC.binary32 then
        decFC p env fmt >>= fun b => Pure.pure (.binary b)
      else if fmt = FC.string8 ∨ fmt = FC.string32 then
        decFC p env fmt >>= fun s => Pure.pure (.string s)
      else if fmt = FC.symbol8 ∨ fmt = FC.symbol32 then
        decFC p env fmt >>= fun s => Pure.pure (.symbol s)
      else if delegated fmt then leafC p (decVariant env (d + 1) fmt)
      else Cost.of (decVariant env (d + 1) fmt)) ?_
    by_cases h1 : fmt = FC.list8 ∨ fmt = FC.list32
    · simp only [if_pos h1]
      rw [decVariant_list h1]
      exact (met_listWith hv env fmt).map _
    simp only [if_neg h1]
    by_cases h2 : fmt = FC.map8 ∨ fmt = FC.map32
    · simp only [if_pos h2]
      rw [decVariant_map h2]
      exact (met_mapWith hv hv env fmt).map _
    simp only [if_neg h2]
    by_cases h3 : fmt = FC.described
    · subst h3
      simp only [if_pos]
      rw [decVariant_described]
      exact ((MeteredD.met env).bind fun ds => hv.bind fun v => Met.pure _).mono (by omega) (by omega)
    simp only [if_neg h3]
    by_cases h5 : fmt = FC.binary8 ∨ fmt = FC.binary32
    · simp only [if_pos h5]
      rw [decVariant_binary h5]
      exact (MeteredLeaf.met env fmt).map _
    simp only [if_neg h5]
    by_cases h6 : fmt = FC.string8 ∨ fmt = FC.string32
    · simp only [if_pos h6]
      rw [decVariant_string h6]
      exact (MeteredLeaf.met env fmt).map _
    simp only [if_neg h6]
    by_cases h7 : fmt = FC.symbol8 ∨ fmt = FC.symbol32
    · simp only [if_pos h7]
      rw [decVariant_symbol h7]
      exact (MeteredLeaf.met env fmt).map _
    simp only [if_neg h7]
    by_cases h4 : delegated fmt = true
    · simp only [if_pos h4]
      exact met_leaf hl
    · simp only [if_neg h4]
      exact (Met.of hl).mono (by omega) (by omega)

instance : Metered Variant := ⟨fun env fmt => met_variant env env.stackDepth fmt⟩

instance : Metered VList :=
  ⟨fun env fmt => ((met_listWith (MeteredD.met env) env fmt).map VList.mk).mono
    (by omega) (by omega)⟩

instance : Metered VecVariantMap := ⟨fun env fmt => by
  have hp : Met 0 2 (decodePairs (decode Str env) (decode Variant env)) fun p =>
      (decodeC Str p env >>= fun k => decodeC Variant p env >>= fun v => Pure.pure (k, v)) :=
    ((MeteredD.met env).bind fun _ => (MeteredD.met env).bind fun _ => Met.pure _)
  have hm := fun h : CompoundHeader => met_decodeN hp (h.count / 2)
  have hr := fun h : CompoundHeader => Met.rooms (k := 0) (u := 0) (n := h.count / 2)
    (hm h).same (hm h).calls ((hm h).room.mono (by omega)) (hm h).bytes
  have hs := fun h : CompoundHeader => (hr h).1
  have : Met 0 0 (decF (α := VecVariantMap) env fmt) fun p =>
      (Cost.of (decodeMapHeader env fmt) >>= fun h => (withSliceC h.size
        (Cost.room p (h.count / 2) >>= fun _ => decodeNC (decodeC Str p env >>= fun k =>
          decodeC Variant p env >>= fun v => Pure.pure (k, v)) (h.count / 2)) >>= fun m =>
            Pure.pure ⟨m⟩)) := by
    refine met_header (k := 0) (Local.decodeMapHeader env fmt) (progress_mapHeader env fmt)
      (fun h p => ?_) (by omega) (fun h => ((hr h).2.1.slice _).bind fun _ => Capped.pure _)
      (fun h => ((hr h).2.2.1.slice _).bind fun _ => Cheap.ofLocal (Local.pure _))
      (fun i r h hd => ?_) (fun h => ((hr h).2.2.2.slice _).bind fun _ => Capped.pure _)
    · rw [erase_bind, erase_withSlice, hs h p, map_eq_pure_bind]; rfl
    · have := mapHeader_count hd
      exact ((capped_rooms (by omega) (hm h).all).slice _).bind fun _ => Capped.pure _
  exact this.call.mono (by omega) (by omega)⟩

/-! ## Arrays -/

/-- Items that make one call and take at least one byte. -/
class MeteredItem (α : Type) [DecodeF α] [DecodeC α] extends MeteredLeaf α where
  loc : ∀ env fmt, Local (decF (α := α) env fmt)
  byte : ∀ env fmt, Progress (decF (α := α) env fmt)

/-- Items that succeed pay for themselves. -/
theorem capped_items {m e : Nat} {c : Cost α} (hall : ∀ i, (c i).2 ≤ m * i.length + e)
    (hused : ∀ i r a, (c i).1 = .ok (r, a) → (c i).2 + m * r.length ≤ m * i.length) :
    ∀ n, (∀ i, (decodeNC c n i).2 ≤ m * i.length + e) ∧
      (∀ i r a, (decodeNC c n i).1 = .ok (r, a) → (decodeNC c n i).2 + m * r.length ≤ m * i.length)
  | 0 => ⟨fun i => Nat.zero_le _, fun i r a h => by
      injection h with h; injection h with h1 _; subst h1
      show 0 + _ ≤ _; omega⟩
  | n + 1 => by
    have ih := capped_items hall hused n
    constructor
    · intro i
      unfold decodeNC
      rw [Cost.run_bind]
      have h1 := hall i
      have h2 := hused i
      rcases hci : c i with ⟨x, k⟩
      rw [hci] at h1 h2
      cases x with
      | ok q =>
        have g1 := h2 q.1 q.2 rfl
        have g2 := ih.1 q.1
        dsimp only at g1 ⊢
        rw [Cost.run_bind]
        rcases hd : decodeNC c n q.1 with ⟨y, l⟩
        rw [hd] at g2
        cases y <;> dsimp only at g2 ⊢ <;> first | (show k + (l + 0) ≤ _; omega) | omega
      | err e => exact h1
      | panic p => exact h1
    · intro i r a h
      unfold decodeNC at h ⊢
      obtain ⟨r1, x, h1, h2, h3⟩ := bindC_ok h
      obtain ⟨r2, y, h4, h5, h6⟩ := bindC_ok h2
      have g1 := hused _ _ _ h1
      have g2 := ih.2 _ _ _ h4
      injection h5 with h5; injection h5 with h7 _
      subst h7
      rw [h3, h6]
      show _ + (_ + 0) + _ ≤ _
      omega

theorem met_vec [DecodeF α] [DecodeC α] [MeteredItem α] (env : Env) (fmt : UInt8) :
    Met 1 0 (decF (α := Vec α) env fmt) fun p => decFC p env fmt := by
  have hN : ∀ n c, Capped 3 3 (decodeNC (decFC (α := α) Price.calls env c) n) := by
    intro n c
    have := capped_items (m := 3) (e := 1) (c := decFC (α := α) Price.calls env c)
      (fun i => by rw [MeteredLeaf.calls]; omega)
      (fun i r a h => by
        have g : (decF (α := α) env c) i = .ok (r, a) := by
          rw [← (MeteredLeaf.met (α := α) env c).same Price.calls]; exact h
        have := MeteredItem.byte env c i r a g
        rw [MeteredLeaf.calls]; omega) n
    exact ⟨fun i => Nat.le_trans (this.1 i) (by omega), fun i r a h => by
      have := this.2 i r a h; omega⟩
  have hR : ∀ n c, Cheap (1 * n) 0 (decodeNC (decFC (α := α) Price.rooms env c) n) := by
    intro n c
    refine Cheap.decodeN ?_ n
    rw [MeteredLeaf.rooms]
    exact Cheap.of fun i r a h => MeteredItem.byte env c i r a h
  have hA : ∀ n c, Capped maxCount 0 (decodeNC (decFC (α := α) Price.rooms env c) n) := by
    intro n c
    refine Capped.decodeN ?_ n
    rw [MeteredLeaf.rooms]
    exact Capped.of (MeteredItem.loc env c)
  have hS : ∀ p n c, erase (decodeNC (decFC (α := α) p env c) n) = decodeN (decF env c) n := by
    intro p n c
    rw [erase_decodeN, (MeteredLeaf.met (α := α) env c).same]
  have hB : ∀ n c, Capped 2 0 (decodeNC (decFC (α := α) Price.bytes env c) n) := by
    intro n c
    exact Capped.decodeN (MeteredLeaf.met (α := α) env c).bytes n
  have hr := fun (h : CompoundHeader) (c : UInt8) => Met.rooms (k := 3) (u := 0) (n := h.count)
    (fun p => hS p h.count c) (hN h.count c) ((hR h.count c).mono (by omega)) (hB h.count c)
  have hi := Local.indexU8
  have : Met 0 0 (decF (α := Vec α) env fmt) fun p =>
      (Cost.of (decodeArrayHeader env fmt) >>= fun h => Cost.of indexU8 >>= fun c =>
        Cost.room p h.count >>= fun _ => decodeNC (decFC p env c) h.count >>= fun l =>
          Pure.pure ⟨l⟩) := by
    refine met_header (k := 3) (Local.decodeArrayHeader env fmt) (progress_arrayHeader env fmt)
      (fun h p => ?_) (by omega) (fun h => ?_) (fun h => ?_) (fun i r h hd => ?_) (fun h => ?_)
    · rw [erase_bind, erase_of]; congr 1; funext c
      show erase (decodeNC (decFC p env c) h.count >>= fun l => _) = _
      rw [erase_bind, hS]; rfl
    · refine ((Capped.of hi).bind fun c => (?_ : Capped 3 3 _)).mono (by omega)
      exact (((Capped.reserve (h.count * 0)).bind fun _ => (hN h.count c).bind fun l =>
        Capped.pure _).mono (by omega))
    · refine ((Cheap.ofLocal hi).bind fun c => (?_ : Cheap 0 0 _)).mono (by omega)
      exact (((Cheap.reserve (h.count * 1)).bind fun _ => (hR h.count c).bind fun l =>
        Cheap.ofLocal (Local.pure _)).mono (by omega))
    · refine ((Capped.of hi).bind fun c => (?_ : Capped maxCount maxCount _)).mono (by omega)
      exact capped_rooms (arrayHeader_count hd).1 ((hA h.count c).bind fun _ => Capped.pure _)
    · refine ((Capped.of hi).bind fun c => (?_ : Capped 2 0 _))
      exact (((Capped.reserve (h.count * 0)).bind fun _ => (hB h.count c).bind fun l =>
        Capped.pure _).mono (by omega))
  exact this.call

instance [DecodeF α] [DecodeC α] [MeteredItem α] : Metered (Vec α) :=
  ⟨fun env fmt => (met_vec env fmt).mono (by omega) (by omega)⟩

instance [DecodeF α] [DecodeC α] [MeteredItem α] : Metered (Multiple α) := ⟨fun env fmt => by
  have h1 : Met 1 0 (decF (α := α) env fmt) fun p => decFC p env fmt := MeteredLeaf.met env fmt
  exact ((((met_vec env fmt).map fun v : Vec α => (⟨v.items⟩ : Multiple α)).ite
    (q := fmt = FC.array8 ∨ fmt = FC.array32) (h1.map fun x => ⟨[x]⟩)).call)⟩


theorem item_progress [DecodeF α] (h : ItemFits fun _ : α => 1) (env : Env) (fmt : UInt8) :
    Progress (decF (α := α) env fmt) := fun i r a hd => by
  have := h env fmt i r a hd
  dsimp only at this; omega

/-! ## List types -/

/-- Limits on the field-by-field part. -/
structure CappedF (m : Nat) (c : FieldCost α) : Prop where
  all : ∀ s, (c s).2 ≤ m * s.2.length
  used : ∀ s t a, (c s).1 = .ok (t, a) → (c s).2 + m * t.2.length ≤ m * s.2.length

structure MetF (d : FieldDec α) (c : Price → FieldCost α) : Prop where
  same : ∀ p s, (c p s).1 = d s
  calls : CappedF 3 (c Price.calls)
  room : ∀ s t a, (c Price.rooms s).1 = .ok (t, a) →
    (c Price.rooms s).2 + t.2.length ≤ s.2.length
  all : CappedF maxCount (c Price.rooms)
  bytes : CappedF 2 (c Price.bytes)

theorem FieldCost.run_bind (c : FieldCost α) (f : α → FieldCost β) (s : Nat × Bytes) :
    (c >>= f) s = match c s with
      | (.ok (t, a), n) => ((f a t).1, n + (f a t).2)
      | (.err e, n) => (.err e, n)
      | (.panic p, n) => (.panic p, n) := rfl

theorem CappedF.pure {m : Nat} (a : α) : CappedF m (Pure.pure a : FieldCost α) :=
  ⟨fun s => Nat.zero_le _, fun s t b h => by
    injection h with h; injection h with h1 _; subst h1
    show 0 + _ ≤ _; omega⟩

theorem bindF_ok {c : FieldCost α} {f : α → FieldCost β} {s t : Nat × Bytes} {b : β}
    (h : ((c >>= f) s).1 = .ok (t, b)) : ∃ s1 a, (c s).1 = .ok (s1, a) ∧
      (f a s1).1 = .ok (t, b) ∧ ((c >>= f) s).2 = (c s).2 + (f a s1).2 := by
  rw [FieldCost.run_bind] at h ⊢
  rcases hci : c s with ⟨x, n⟩
  rw [hci] at h
  cases x with
  | ok q => exact ⟨q.1, q.2, rfl, h, rfl⟩
  | err e => cases h
  | panic p => cases h

theorem CappedF.bind {m : Nat} {c : FieldCost α} {f : α → FieldCost β} (hc : CappedF m c)
    (hf : ∀ a, CappedF m (f a)) : CappedF m (c >>= f) := by
  constructor
  · intro s
    have h1 := hc.all s
    have h2 := hc.used s
    rw [FieldCost.run_bind]
    rcases hci : c s with ⟨x, n⟩
    rw [hci] at h1 h2
    cases x with
    | ok q =>
      have := h2 q.1 q.2 rfl
      have := (hf q.2).all q.1
      dsimp only at *
      omega
    | err e => exact h1
    | panic p => exact h1
  · intro s t b hb
    obtain ⟨s1, a, h1, h2, h3⟩ := bindF_ok hb
    have g1 := hc.used _ _ _ h1
    have g2 := (hf a).used _ _ _ h2
    omega

theorem MetF.pure (a : α) : MetF (Pure.pure a) fun _ => Pure.pure a where
  same _ _ := rfl
  calls := CappedF.pure a
  room := fun s t b h => by
    injection h with h; injection h with h1 _; subst h1
    show 0 + _ ≤ _; omega
  all := CappedF.pure a
  bytes := CappedF.pure a

theorem MetF.bind {d : FieldDec α} {c : Price → FieldCost α} {f : α → FieldDec β}
    {g : α → Price → FieldCost β} (h : MetF d c) (hf : ∀ a, MetF (f a) (g a)) :
    MetF (d >>= f) fun p => (c p >>= fun a => g a p) where
  same p s := by
    rw [FieldDec.run_bind, FieldCost.run_bind, ← h.same p s]
    rcases c p s with ⟨x, n⟩
    cases x with
    | ok q => exact (hf q.2).same p q.1
    | err e => rfl
    | panic e => rfl
  calls := h.calls.bind fun a => (hf a).calls
  room := fun s t b hb => by
    obtain ⟨s1, a, h1, h2, h3⟩ := bindF_ok hb
    have g1 := h.room _ _ _ h1
    have g2 := (hf a).room _ _ _ h2
    omega
  all := h.all.bind fun a => (hf a).all
  bytes := h.bytes.bind fun a => (hf a).bytes

theorem presentC_snd (c : Cost α) (n : Nat) (i : Bytes) : (presentC c n i).2 = (c i).2 := by
  unfold presentC
  rcases c i with ⟨x, m⟩
  cases x <;> rfl
theorem presentC_fst (c : Cost α) (n : Nat) (i : Bytes) :
    (presentC c n i).1 = present (erase c) n i := by
  unfold presentC present erase
  rcases c i with ⟨x, m⟩
  cases x <;> rfl
theorem presentC_ok {c : Cost α} {n : Nat} {i : Bytes} {t : Nat × Bytes} {a : α}
    (h : (presentC c n i).1 = .ok (t, a)) : (c i).1 = .ok (t.2, a) := by
  unfold presentC at h
  rcases hc : c i with ⟨x, m⟩
  rw [hc] at h
  cases x with
  | ok q => injection h with h; injection h with h1 h2; subst h1 h2; rfl
  | err e => cases h
  | panic e => cases h

/-- A field: nothing to spend if it is absent, its decoder otherwise. -/
theorem metF_of {d : FieldDec α} {c : Price → FieldCost α} {d' : Dec α} {c' : Price → Cost α}
    (h : Met 0 1 d' c') (h0 : ∀ p i, (c p (0, i)).1 = d (0, i) ∧ (c p (0, i)).2 = 0)
    (hz : ∀ i t a, d (0, i) = .ok (t, a) → t.2 = i)
    (hs : ∀ n i, d (n + 1, i) = present d' n i) (hc : ∀ p n i, c p (n + 1, i) = presentC (c' p) n i) :
    MetF d c := by
  have cap : ∀ {m : Nat} {p : Price}, Capped m 0 (c' p) → CappedF m (c p) := by
    intro m p hm
    refine ⟨fun s => ?_, fun s t a hd => ?_⟩
    · rcases s with ⟨n, i⟩
      cases n with
      | zero => rw [(h0 p i).2]; exact Nat.zero_le _
      | succ n => rw [hc, presentC_snd]; exact hm.all i
    · rcases s with ⟨n, i⟩
      cases n with
      | zero =>
        rw [(h0 p i).2]
        rw [(h0 p i).1] at hd
        rw [hz _ _ _ hd]; dsimp only; omega
      | succ n =>
        rw [hc] at hd
        have := hm.used i t.2 a (presentC_ok hd)
        rw [hc, presentC_snd]; dsimp only; omega
  refine ⟨fun p s => ?_, cap h.calls, fun s t a hd => ?_, cap h.all, cap h.bytes⟩
  · rcases s with ⟨n, i⟩
    cases n with
    | zero => exact (h0 p i).1
    | succ n => rw [hc, hs, presentC_fst, h.same]
  · rcases s with ⟨n, i⟩
    cases n with
    | zero =>
      rw [(h0 _ i).2]
      rw [(h0 _ i).1] at hd
      rw [hz _ _ _ hd]; dsimp only; omega
    | succ n =>
      rw [hc] at hd
      have := h.room i t.2 a (presentC_ok hd)
      rw [hc, presentC_snd]; dsimp only; omega

theorem metF_req [DecodeF α] [DecodeC α] [MeteredD α] (env : Env) (name : String) :
    MetF (fReq α env name) fun p => fReqC α p env name :=
  metF_of (MeteredD.met env) (fun _ _ => ⟨rfl, rfl⟩) (fun _ _ _ h => by cases h) (fun _ _ => rfl)
    fun _ _ _ => rfl
theorem metF_opt [DecodeF α] [DecodeC α] [MeteredD (Option α)] (env : Env) :
    MetF (fOpt α env) fun p => fOptC α p env :=
  metF_of (MeteredD.met env) (fun _ _ => ⟨rfl, rfl⟩)
    (fun _ _ _ h => by injection h with h; injection h with h _; subst h; rfl)
    (fun _ _ => rfl) fun _ _ _ => rfl
theorem metF_def [DecodeF α] [DecodeC α] [MeteredD (Option α)] (env : Env) (x : α) :
    MetF (fDef α env x) fun p => fDefC α p env x :=
  metF_of ((MeteredD.met env).map fun o : Option α => o.getD x) (fun _ _ => ⟨rfl, rfl⟩)
    (fun _ _ _ h => by injection h with h; injection h with h _; subst h; rfl)
    (fun _ _ => rfl) fun _ _ _ => rfl

theorem onBody_snd (c : FieldCost α) (n : Nat) (b r : Bytes) :
    (onBody c n b r).2 = (c (n, b)).2 := by
  unfold onBody
  rcases c (n, b) with ⟨x, m⟩
  cases x <;> rfl
theorem onBody_ok {c : FieldCost α} {n : Nat} {b r r' : Bytes} {a : α}
    (h : (onBody c n b r).1 = .ok (r', a)) : r' = r ∧ ∃ t, (c (n, b)).1 = .ok (t, a) := by
  unfold onBody at h
  rcases hc : c (n, b) with ⟨x, m⟩
  rw [hc] at h
  cases x with
  | ok q => injection h with h; injection h with h1 h2; subst h1 h2; exact ⟨rfl, q.1, rfl⟩
  | err e => cases h
  | panic e => cases h

theorem capped_onBody {m : Nat} {c : FieldCost α} (hc : CappedF m c) (k n : Nat) :
    Capped m 0 (Cost.of (takeN k) >>= fun b => onBody c n b) := by
  constructor
  · intro i
    rw [Cost.bind_of]
    cases h : takeN k i with
    | ok q =>
      obtain ⟨rfl, hl⟩ := takeN_ok h
      dsimp only
      rw [onBody_snd]
      have h1 := hc.all (n, q.2)
      have h2 : m * (q.2 ++ q.1).length = m * q.2.length + m * q.1.length := by
        rw [List.length_append, Nat.mul_add]
      dsimp only at h1
      omega
    | err e => exact Nat.zero_le _
    | panic p => exact Nat.zero_le _
  · intro i r a hd
    obtain ⟨r1, b, h1, h2, h3⟩ := bindC_ok hd
    obtain ⟨rfl, t, h4⟩ := onBody_ok h2
    obtain ⟨rfl, hl⟩ := takeN_ok (show takeN k i = .ok (r, b) from h1)
    rw [h3, onBody_snd]
    have g1 := hc.all (n, b)
    have g2 : m * (b ++ r).length = m * b.length + m * r.length := by
      rw [List.length_append, Nat.mul_add]
    have g3 : (Cost.of (takeN k) (b ++ r)).2 = 0 := rfl
    dsimp only at g1
    omega

theorem met_listInner {d : FieldDec α} {c : Price → FieldCost α} (h : MetF d c) (env : Env) :
    Met 0 1 (listInner env d) fun p => listInnerC env (c p) := by
  refine (Met.byte Local.readU8 progress_formatCode (u := 0) fun f => ?_)
  refine ((Met.of (Local.decodeListHeader env f)).bind (k' := 0) (u' := 0) fun hd => ?_).mono
    (by omega) (by omega)
  refine ⟨fun p => ?_, capped_onBody h.calls _ _, fun i r a hb => ?_, capped_onBody h.all _ _,
    capped_onBody h.bytes _ _⟩
  · rw [erase_bind, erase_of]
    congr 1; funext b r
    unfold erase onBody
    rw [← h.same p (hd.count, b)]
    rcases c p (hd.count, b) with ⟨x, m⟩
    cases x <;> rfl
  · obtain ⟨r1, b, h1, h2, h3⟩ := bindC_ok hb
    obtain ⟨rfl, t, h4⟩ := onBody_ok h2
    obtain ⟨rfl, hl⟩ := takeN_ok (show takeN hd.size i = .ok (r, b) from h1)
    rw [h3, onBody_snd]
    have g1 := h.room _ _ _ h4
    have g3 : (Cost.of (takeN hd.size) (b ++ r)).2 = 0 := rfl
    rw [List.length_append]
    dsimp only at g1
    omega

theorem met_validate {k u : Nat} {d : Dec α} {c : Price → Cost α} (fmt code : UInt8)
    (h : Met k 0 d c) : Met k 0 (validateCode fmt code d) fun p => validateCodeC fmt code (c p) :=
  ((Met.fail _).mono (by omega) (by omega)).ite h

theorem met_describedAs {u : Nat} {d : Dec α} {c : Price → Cost α} (h : Met 0 u d c) (env : Env)
    (fmt : UInt8) (code : UInt64) (name : String) :
    Met 1 0 (describedAs env fmt code name d) fun p => describedAsC p env fmt code name (c p) := by
  refine Met.call ?_
  refine met_validate (u := 0) fmt FC.described ?_
  refine ((MeteredD.met env).bind (k' := 0) (u' := 0) fun ds => ?_).mono (by omega) (by omega)
  exact (Met.fail _).ite (h.mono (by omega) (by omega))

theorem met_union {f : Descriptor → Dec α} {g : Descriptor → Price → Cost α} (env : Env)
    (fmt : UInt8) (h : ∀ ds, Met 0 0 (f ds) (g ds)) :
    Met 1 0 (validateCode fmt FC.described (decode Descriptor env >>= f)) fun p =>
      unionC p env fmt fun ds => g ds p := by
  refine Met.call ?_
  refine met_validate (u := 0) fmt FC.described ?_
  exact ((MeteredD.met env).bind fun ds => h ds).mono (by omega) (by omega)

theorem metered_enum {β : Type} [DecodeF β] [DecodeC β] [MeteredLeaf β] [DecodeF α] [DecodeC α]
    (tryFrom : β → Res ParseError α)
    (h1 : ∀ env fmt, decF (α := α) env fmt = decodeEnum tryFrom env fmt)
    (h2 : ∀ p env fmt, decFC (α := α) p env fmt = decodeEnumC tryFrom p env fmt) : Metered α :=
  ⟨fun env fmt => by
    have hb : Met 1 0 (decF (α := β) env fmt) fun p => decFC p env fmt := MeteredLeaf.met env fmt
    simp only [h1, h2]
    refine Met.call (k := 1) ?_
    refine (hb.bind (k' := 0) (u' := 0) fun b => ?_)
    cases tryFrom b with
    | ok a => exact Met.pure a
    | err e => exact Met.fail e
    | panic q => exact Met.of (Local.abort q)⟩

end

instance : MeteredItem Symbol where
  loc env fmt := LawfulDec.loc env fmt
  byte env c i r a h := by
    have hp : Post (decF env c : Dec Symbol) fun i r _ => r.length < i.length := by
      refine Dec.Post.ite ?_ (Dec.Post.ite ?_ (Dec.Post.fail _)) <;> intro i r a h
      · obtain ⟨s, h1, rfl⟩ := map_eq_ok.1 h
        obtain ⟨r1, b, h2, h3⟩ := bind_eq_ok.1 h1
        obtain ⟨rfl, e⟩ := fromUtf8_ok h3
        obtain ⟨_, rfl⟩ := readBytesU8_ok h2
        simp; omega
      · obtain ⟨s, h1, rfl⟩ := map_eq_ok.1 h
        obtain ⟨r1, b, h2, h3⟩ := bind_eq_ok.1 h1
        obtain ⟨rfl, e⟩ := fromUtf8_ok h3
        obtain ⟨_, rfl⟩ := readBytesU32_ok h2
        simp; omega
    exact hp i r a h

instance : Metered MessageId := ⟨fun env fmt =>
  Met.call (((MeteredLeaf.met env fmt).map _).ite (((MeteredLeaf.met env fmt).map _).ite
    (((MeteredLeaf.met env fmt).map _).ite (((MeteredLeaf.met env fmt).map _).ite
      ((Met.fail _).mono (by omega) (by omega))))))⟩
instance : Metered ErrorCondition := ⟨fun env fmt =>
  Met.call ((MeteredLeaf.met env fmt).bind fun s => Met.pure (ErrorCondition.ofSymbol s))⟩
instance : Metered DistributionMode := ⟨fun env fmt =>
  Met.call ((MeteredLeaf.met env fmt).bind fun s => Met.pure (DistributionMode.ofSymbol s))⟩

end Amqp
