import Verif.Proofs.Sent
/-!
# What becomes of a value on its way: consequences
-/
set_option autoImplicit false
namespace Amqp
open Dec Lenient

theorem andThen_arrives {α β : Type} {s : Fate α} {f : α → Fate β} {b : β} :
    s.andThen f = .arrives b ↔ ∃ a, s = .arrives a ∧ f a = .arrives b := by
  cases s with
  | arrives a => exact ⟨fun h => ⟨a, rfl, h⟩, fun ⟨a', h, h'⟩ => by injection h with h; subst h; exact h'⟩
  | refused => exact ⟨nofun, fun ⟨_, h, _⟩ => nomatch h⟩
  | crashes p => exact ⟨nofun, fun ⟨_, h, _⟩ => nomatch h⟩

theorem arrives_inj {α : Type} {a b : α} : Fate.arrives a = .arrives b ↔ a = b :=
  ⟨fun h => by injection h, fun h => h ▸ rfl⟩

theorem pointOfTime_arrives {s : Int} {n : Nat} {t : DateTime} :
    pointOfTime s n = .arrives t ↔ t.secs = s ∧ t.nanos = n := by
  unfold pointOfTime
  split
  · constructor
    · intro h; injection h with h; subst h; exact ⟨rfl, rfl⟩
    · rintro ⟨rfl, rfl⟩; rfl
  · next h =>
    constructor
    · nofun
    · rintro ⟨rfl, rfl⟩; exact absurd t.ok h

/-- A time arrives as one that survives. -/
theorem datetime_sent_survives {t u : DateTime} (h : t.sent = .arrives u) : u.Survives := by
  have hb := u.bounds
  simp only [DateTime.sent] at h
  unfold DateTime.Survives
  split at h
  · obtain ⟨h1, h2⟩ := pointOfTime_arrives.1 h; omega
  · split at h
    · obtain ⟨h1, h2⟩ := pointOfTime_arrives.1 h; omega
    · obtain ⟨h1, h2⟩ := pointOfTime_arrives.1 h; omega

/-- A time that survives arrives as it is. -/
theorem DateTime.Survives.sent {t : DateTime} (h : t.Survives) : t.sent = .arrives t := by
  unfold DateTime.Survives at h
  simp only [DateTime.sent]
  split
  · rw [pointOfTime_arrives]; omega
  · split
    · rw [pointOfTime_arrives]; omega
    · omega

theorem dtOk_iff {s : Int} {n : Nat} :
    dtOk s n = true ↔ (-8334632851200 ≤ s ∧ s ≤ 8210298412799) ∧ n < 2000000000 := by
  simp only [dtOk, Bool.and_eq_true, decide_eq_true_eq]
  exact Iff.rfl

theorem pointOfTime_some {s : Int} {n : Nat} :
    (∃ t, pointOfTime s n = .arrives t) ↔ dtOk s n = true := by
  unfold pointOfTime
  split
  · next h => exact ⟨fun _ => h, fun _ => ⟨_, rfl⟩⟩
  · next h => exact ⟨fun ⟨_, h⟩ => (nomatch h), fun h' => absurd h' h⟩

theorem datetime_arrives_iff (t : DateTime) : (∃ u, t.sent = .arrives u) ↔ t.Timely := by
  have hb := t.bounds
  have hok := dtOk_iff.1 t.ok
  unfold DateTime.Timely
  simp only [DateTime.sent]
  split
  · rw [pointOfTime_some, dtOk_iff]; omega
  · split
    · rw [pointOfTime_some, dtOk_iff]; omega
    · rw [pointOfTime_some, dtOk_iff]; omega

/-- A time does not arrive only because chrono does not have it. -/
theorem datetime_sent_crash {t : DateTime} (h : ¬∃ u, t.sent = .arrives u) :
    t.sent = .crashes .timestampRange := by
  have key : ∀ s n, (¬∃ u, pointOfTime s n = .arrives u) →
      pointOfTime s n = .crashes .timestampRange := by
    intro s n h
    unfold pointOfTime at *
    split
    · next h' => exact absurd ⟨_, dif_pos h'⟩ h
    · rfl
  simp only [DateTime.sent] at *
  split
  · next h' => rw [if_pos h'] at h; exact key _ _ h
  · next h' =>
    rw [if_neg h'] at h
    split
    · next h' => rw [if_pos h'] at h; exact key _ _ h
    · next h' => rw [if_neg h'] at h; exact key _ _ h

theorem merged_nodup {l : List (Variant × Variant)} (hh : ∀ e ∈ l, e.1.hashOk = true)
    (hn : NodupKeys l) : merged l = l := by
  rw [← insertAll_merged l hh, insertAll_fresh l [] hn]
  rfl

theorem survives_entries {d : Nat} : ∀ {m : List (Variant × Variant)},
    (∀ e ∈ m, e.1.sent d = .arrives e.1 ∧ e.2.sent d = .arrives e.2) →
    (∀ e ∈ m, e.1.hashOk = true) → sentMap d m = .arrives m
  | [], _, _ => by simp only [sentMap]
  | (k, v) :: t, h, hh => by
    have h1 := h (k, v) (by simp)
    have h2 : k.holdsMap = false := by
      have := hh (k, v) (by simp)
      rw [hashOk_eq] at this
      simpa using this
    have ih := survives_entries (fun e he => h e (List.mem_cons_of_mem _ he))
      fun e he => hh e (List.mem_cons_of_mem _ he)
    simp only [sentMap, h1.1, h1.2, Fate.andThen, h2, ih]
    simp

theorem depthMap_mem {m : List (Variant × Variant)} {e : Variant × Variant} (h : e ∈ m) :
    e.1.depth ≤ depthMap m ∧ e.2.depth ≤ depthMap m := by
  induction m with
  | nil => cases h
  | cons x t ih =>
    obtain ⟨k, v⟩ := x
    simp only [depthMap]
    rcases List.mem_cons.1 h with rfl | h
    · simp only; omega
    · have := ih h; omega

theorem survives_sent (v : Variant) : ∀ d, v.Survives → v.depth ≤ d → v.sent d = .arrives v := by
  induction v using Variant.ind with
  | leaf v hl hm hd =>
    intro d h hdep
    cases d with
    | zero => cases v <;> simp [Variant.depth] at hdep
    | succ d =>
      cases v with
      | list l => exact absurd rfl (hl l)
      | map m => exact absurd rfl (hm m)
      | described d w => exact absurd rfl (hd d w)
      | timestamp t =>
        simp only [Variant.Survives] at h
        simp only [Variant.sent, h.sent, Fate.andThen]
      | staticSymbol s => simp only [Variant.Survives] at h
      | _ => simp only [Variant.sent]
  | list l ih => intro d h; simp only [Variant.Survives] at h
  | map m ih =>
    intro d h hdep
    simp only [Variant.Survives, survivesMap_iff] at h
    simp only [Variant.depth] at hdep
    cases d with
    | zero => omega
    | succ d =>
      have := survives_entries (d := d) (fun e he => by
        have hm := depthMap_mem he
        exact ⟨(ih e he).1 d (h.1 e he).1 (by omega), (ih e he).2 d (h.1 e he).2 (by omega)⟩) h.2.1
      simp only [Variant.sent, this, Fate.andThen, merged_nodup h.2.1 h.2.2]
  | described ds v ih =>
    intro d h hdep
    simp only [Variant.Survives] at h
    simp only [Variant.depth] at hdep
    cases d with
    | zero => omega
    | succ d =>
      simp only [Variant.sent, if_neg h.1, ih d h.2 (by omega), Fate.andThen]

theorem insertAll_all {P Q : Variant → Prop} : ∀ {l acc : List (Variant × Variant)},
    (∀ e ∈ acc, P e.1 ∧ Q e.2) → (∀ e ∈ l, P e.1 ∧ Q e.2) → ∀ e ∈ insertAll acc l, P e.1 ∧ Q e.2
  | [], acc, ha, _ => ha
  | (k, v) :: t, acc, ha, hl => by
    have h1 := hl (k, v) (by simp)
    refine insertAll_all (acc := insertEntry HKey.keq k v acc) ?_
      fun e he => hl e (List.mem_cons_of_mem _ he)
    clear hl
    induction acc with
    | nil => intro e he; simp [insertEntry] at he; subst he; exact h1
    | cons x s ih =>
      obtain ⟨k', v'⟩ := x
      have hx := ha (k', v') (by simp)
      unfold insertEntry
      split
      · intro e he
        rcases List.mem_cons.1 he with rfl | he
        · exact ⟨hx.1, h1.2⟩
        · exact ha e (List.mem_cons_of_mem _ he)
      · intro e he
        rcases List.mem_cons.1 he with rfl | he
        · exact hx
        · exact ih (fun e he => ha e (List.mem_cons_of_mem _ he)) e he

/-- Each entry that arrives comes from one that was sent. -/
theorem sentMap_cons {d : Nat} {k v : Variant} {t l : List (Variant × Variant)} :
    sentMap d ((k, v) :: t) = .arrives l ↔ ∃ k' v' l', k.sent d = .arrives k' ∧
      v.sent d = .arrives v' ∧ k'.holdsMap = false ∧ sentMap d t = .arrives l' ∧
      l = (k', v') :: l' := by
  simp only [sentMap, andThen_arrives]
  constructor
  · rintro ⟨k', hk, v', hv, h⟩
    split at h
    · cases h
    · next hn =>
      obtain ⟨l', h1, h2⟩ := andThen_arrives.1 h
      injection h2 with h2
      exact ⟨k', v', l', hk, hv, by simpa using hn, h1, h2.symm⟩
  · rintro ⟨k', v', l', hk, hv, hn, h1, rfl⟩
    refine ⟨k', hk, v', hv, ?_⟩
    rw [if_neg (by simp [hn]), h1]
    rfl

theorem sentMap_from {d : Nat} : ∀ {m l : List (Variant × Variant)}, sentMap d m = .arrives l →
    ∀ e ∈ l, ∃ x ∈ m, x.1.sent d = .arrives e.1 ∧ x.2.sent d = .arrives e.2
  | [], l, h => by simp only [sentMap] at h; injection h with h; subst h; simp
  | (k, v) :: t, l, h => by
    obtain ⟨k', v', l', hk, hv, _, ht, rfl⟩ := sentMap_cons.1 h
    intro e he
    rcases List.mem_cons.1 he with rfl | he
    · exact ⟨(k, v), by simp, hk, hv⟩
    · obtain ⟨x, hx, h⟩ := sentMap_from ht e he
      exact ⟨x, List.mem_cons_of_mem _ hx, h⟩

/-- What arrives is a value that survives, and no deeper than there is room for. -/
theorem sent_survives (v : Variant) : ∀ d w, v.sent d = .arrives w → w.Survives ∧ w.depth ≤ d := by
  induction v using Variant.ind with
  | leaf v hl hm hd =>
    intro d w h
    cases d with
    | zero => simp only [Variant.sent] at h; cases h
    | succ d =>
      cases v with
      | list l => exact absurd rfl (hl l)
      | map m => exact absurd rfl (hm m)
      | described d w => exact absurd rfl (hd d w)
      | timestamp t =>
        simp only [Variant.sent] at h
        obtain ⟨u, h1, h2⟩ := andThen_arrives.1 h
        injection h2 with h2
        subst h2
        simp only [Variant.Survives, Variant.depth]
        exact ⟨datetime_sent_survives h1, by omega⟩
      | _ =>
        simp only [Variant.sent] at h
        injection h with h
        subst h
        simp only [Variant.Survives, Variant.depth]
        exact ⟨trivial, by omega⟩
  | list l ih =>
    intro d w h
    cases d <;> (simp only [Variant.sent] at h; cases h)
  | map m ih =>
    intro d w h
    cases d with
    | zero => simp only [Variant.sent] at h; cases h
    | succ d =>
      simp only [Variant.sent] at h
      obtain ⟨l, h1, h2⟩ := andThen_arrives.1 h
      injection h2 with h2
      subst h2
      have hh : ∀ e ∈ l, e.1.hashOk = true := fun e he => by
        rw [hashOk_eq, sentMap_hash h1 e he]; rfl
      rw [← insertAll_merged l hh]
      have hall : ∀ e ∈ insertAll [] l, (e.1.Survives ∧ e.1.depth ≤ d ∧ e.1.hashOk = true) ∧
          (e.2.Survives ∧ e.2.depth ≤ d) :=
        insertAll_all (P := fun k => k.Survives ∧ k.depth ≤ d ∧ k.hashOk = true)
          (Q := fun v => v.Survives ∧ v.depth ≤ d) (by simp) fun e he => by
          obtain ⟨x, hx, h3, h4⟩ := sentMap_from h1 e he
          have a := (ih x hx).1 d _ h3
          exact ⟨⟨a.1, a.2, hh e he⟩, (ih x hx).2 d _ h4⟩
      simp only [Variant.Survives, survivesMap_iff, Variant.depth]
      refine ⟨⟨fun e he => ⟨(hall e he).1.1, (hall e he).2.1⟩, fun e he => (hall e he).1.2.2,
        insertAll_nodup l [] List.Pairwise.nil⟩, ?_⟩
      have := depthMap_le_of (m := insertAll [] l) (d := d)
        fun e he => ⟨(hall e he).1.2.1, (hall e he).2.2⟩
      omega
  | described ds v ih =>
    intro d w h
    cases d with
    | zero => simp only [Variant.sent] at h; cases h
    | succ d =>
      simp only [Variant.sent] at h
      split at h
      · cases h
      · next hne =>
        obtain ⟨u, h1, h2⟩ := andThen_arrives.1 h
        injection h2 with h2
        subst h2
        obtain ⟨a, b⟩ := ih d u h1
        simp only [Variant.Survives, Variant.depth]
        exact ⟨⟨hne, a⟩, by omega⟩

theorem lastingMap_iff (m : List (Variant × Variant)) :
    lastingMap m ↔ ∀ e ∈ m, e.1.Lasting ∧ e.2.Lasting := by
  induction m with
  | nil => simp [lastingMap]
  | cons e t ih => obtain ⟨k, v⟩ := e; simp [lastingMap, ih]

theorem timelyMap_iff (m : List (Variant × Variant)) :
    timelyMap m ↔ ∀ e ∈ m, e.1.Timely ∧ e.2.Timely := by
  induction m with
  | nil => simp [timelyMap]
  | cons e t ih => obtain ⟨k, v⟩ := e; simp [timelyMap, ih]

theorem sentMap_same {d : Nat} : ∀ {m l : List (Variant × Variant)},
    (∀ e ∈ m, (∀ w, e.1.sent d = .arrives w → w = e.1) ∧ (∀ w, e.2.sent d = .arrives w → w = e.2)) →
    sentMap d m = .arrives l → l = m
  | [], l, _, h => by simp only [sentMap] at h; injection h with h; exact h.symm
  | (k, v) :: t, l, hs, h => by
    obtain ⟨k', v', l', hk, hv, _, ht, rfl⟩ := sentMap_cons.1 h
    have h1 := hs (k, v) (by simp)
    rw [h1.1 _ hk, h1.2 _ hv, sentMap_same (fun e he => hs e (List.mem_cons_of_mem _ he)) ht]

/-- A value without static symbols or times that change arrives as it is, if at all. -/
theorem sent_same (v : Variant) : ∀ d w, v.Valid → v.Lasting → v.sent d = .arrives w → w = v := by
  induction v using Variant.ind with
  | leaf v hl hm hd =>
    intro d w _ hlast h
    cases d with
    | zero => simp only [Variant.sent] at h; cases h
    | succ d =>
      cases v with
      | list l => exact absurd rfl (hl l)
      | map m => exact absurd rfl (hm m)
      | described d w => exact absurd rfl (hd d w)
      | timestamp t =>
        simp only [Variant.Lasting] at hlast
        simp only [Variant.sent, hlast.sent, Fate.andThen] at h
        injection h with h; exact h.symm
      | staticSymbol s => simp only [Variant.Lasting] at hlast
      | _ => simp only [Variant.sent] at h; injection h with h; exact h.symm
  | list l ih =>
    intro d w _ _ h
    cases d <;> (simp only [Variant.sent] at h; cases h)
  | map m ih =>
    intro d w hv hlast h
    cases d with
    | zero => simp only [Variant.sent] at h; cases h
    | succ d =>
      simp only [Variant.sent] at h
      simp only [Variant.Valid, validMap_iff] at hv
      simp only [Variant.Lasting, lastingMap_iff] at hlast
      obtain ⟨l, h1, h2⟩ := andThen_arrives.1 h
      injection h2 with h2
      subst h2
      rw [sentMap_same (fun e he => ⟨fun w => (ih e he).1 d w (hv.1 e he).1 (hlast e he).1,
        fun w => (ih e he).2 d w (hv.1 e he).2 (hlast e he).2⟩) h1, merged_nodup hv.2.1 hv.2.2]
  | described ds v ih =>
    intro d w hv hlast h
    simp only [Variant.Valid] at hv
    simp only [Variant.Lasting] at hlast
    cases d with
    | zero => simp only [Variant.sent] at h; cases h
    | succ d =>
      simp only [Variant.sent] at h
      split at h
      · cases h
      · obtain ⟨u, h1, h2⟩ := andThen_arrives.1 h
        injection h2 with h2
        subst h2
        rw [ih d u hv hlast h1]

/-- Whether it holds a map does not change on the way. -/
theorem sent_holdsMap (v : Variant) : ∀ d w, v.sent d = .arrives w →
    w.holdsMap = v.holdsMap := by
  induction v using Variant.ind with
  | leaf v hl hm hd =>
    intro d w h
    cases d with
    | zero => simp only [Variant.sent] at h; cases h
    | succ d =>
      cases v with
      | list l => exact absurd rfl (hl l)
      | map m => exact absurd rfl (hm m)
      | described d w => exact absurd rfl (hd d w)
      | timestamp t =>
        simp only [Variant.sent] at h
        obtain ⟨u, h1, h2⟩ := andThen_arrives.1 h
        injection h2 with h2
        subst h2
        simp only [Variant.holdsMap]
      | _ =>
        simp only [Variant.sent] at h
        injection h with h
        subst h
        simp only [Variant.holdsMap]
  | list l ih =>
    intro d w h
    cases d <;> (simp only [Variant.sent] at h; cases h)
  | map m ih =>
    intro d w h
    cases d with
    | zero => simp only [Variant.sent] at h; cases h
    | succ d =>
      simp only [Variant.sent] at h
      obtain ⟨l, _, h2⟩ := andThen_arrives.1 h
      injection h2 with h2
      subst h2
      simp only [Variant.holdsMap]
  | described ds v ih =>
    intro d w h
    cases d with
    | zero => simp only [Variant.sent] at h; cases h
    | succ d =>
      simp only [Variant.sent] at h
      split at h
      · cases h
      · obtain ⟨u, h1, h2⟩ := andThen_arrives.1 h
        injection h2 with h2
        subst h2
        simp only [Variant.holdsMap]
        exact ih d u h1

theorem sentMap_arrives_iff {d : Nat} : ∀ {m : List (Variant × Variant)},
    (∀ e ∈ m, e.1.hashOk = true) → ((∃ l, sentMap d m = .arrives l) ↔
      ∀ e ∈ m, (∃ w, e.1.sent d = .arrives w) ∧ ∃ w, e.2.sent d = .arrives w)
  | [], _ => ⟨fun _ => by simp, fun _ => ⟨[], by simp only [sentMap]⟩⟩
  | (k, v) :: t, hh => by
    have ih := sentMap_arrives_iff (d := d) fun e he => hh e (List.mem_cons_of_mem _ he)
    constructor
    · rintro ⟨l, h⟩
      obtain ⟨k', v', l', hk, hv, _, ht, _⟩ := sentMap_cons.1 h
      intro e he
      rcases List.mem_cons.1 he with rfl | he
      · exact ⟨⟨_, hk⟩, _, hv⟩
      · exact ih.1 ⟨_, ht⟩ e he
    · intro h
      obtain ⟨⟨k', hk⟩, v', hv⟩ := h (k, v) (by simp)
      obtain ⟨l', ht⟩ := ih.2 fun e he => h e (List.mem_cons_of_mem _ he)
      refine ⟨_, sentMap_cons.2 ⟨k', v', l', hk, hv, ?_, ht, rfl⟩⟩
      have := hh (k, v) (by simp)
      rw [hashOk_eq] at this
      rw [sent_holdsMap k d k' hk]
      simpa using this

theorem depthMap_le_iff {m : List (Variant × Variant)} {d : Nat} :
    depthMap m ≤ d ↔ ∀ e ∈ m, e.1.depth ≤ d ∧ e.2.depth ≤ d :=
  ⟨fun h e he => by have := depthMap_mem he; omega, depthMap_le_of⟩

/-- Exactly which values arrive. -/
theorem sent_arrives_iff (v : Variant) : ∀ d, v.Valid →
    ((∃ w, v.sent d = .arrives w) ↔ v.Plain ∧ v.depth ≤ d ∧ v.Timely) := by
  induction v using Variant.ind with
  | leaf v hl hm hd =>
    intro d _
    cases d with
    | zero =>
      constructor
      · rintro ⟨w, h⟩; simp only [Variant.sent] at h; cases h
      · rintro ⟨_, h, _⟩; cases v <;> simp [Variant.depth] at h
    | succ d =>
      cases v with
      | list l => exact absurd rfl (hl l)
      | map m => exact absurd rfl (hm m)
      | described d w => exact absurd rfl (hd d w)
      | timestamp t =>
        simp only [Variant.sent, Variant.Plain, Variant.depth, Variant.Timely,
          ← datetime_arrives_iff, andThen_arrives]
        constructor
        · rintro ⟨w, u, h, _⟩; exact ⟨trivial, by omega, u, h⟩
        · rintro ⟨_, _, u, h⟩; exact ⟨_, u, h, rfl⟩
      | _ =>
        simp only [Variant.sent, Variant.Plain, Variant.depth, Variant.Timely]
        exact ⟨fun _ => ⟨trivial, by omega, trivial⟩, fun _ => ⟨_, rfl⟩⟩
  | list l ih =>
    intro d _
    constructor
    · rintro ⟨w, h⟩
      cases d <;> (simp only [Variant.sent] at h; cases h)
    · rintro ⟨h, _⟩; simp only [Variant.Plain] at h
  | map m ih =>
    intro d hv
    simp only [Variant.Valid, validMap_iff] at hv
    simp only [Variant.Plain, Variant.depth, Variant.Timely, plainMap_iff, timelyMap_iff]
    cases d with
    | zero =>
      constructor
      · rintro ⟨w, h⟩; simp only [Variant.sent] at h; cases h
      · rintro ⟨_, h, _⟩; omega
    | succ d =>
      simp only [Variant.sent, andThen_arrives]
      have key := sentMap_arrives_iff (d := d) hv.2.1
      constructor
      · rintro ⟨w, l, h, _⟩
        have h := key.1 ⟨l, h⟩
        have h' : ∀ e ∈ m, (e.1.Plain ∧ e.1.depth ≤ d ∧ e.1.Timely) ∧
            e.2.Plain ∧ e.2.depth ≤ d ∧ e.2.Timely := fun e he =>
          ⟨((ih e he).1 d (hv.1 e he).1).1 (h e he).1, ((ih e he).2 d (hv.1 e he).2).1 (h e he).2⟩
        refine ⟨fun e he => ⟨(h' e he).1.1, (h' e he).2.1⟩, ?_,
          fun e he => ⟨(h' e he).1.2.2, (h' e he).2.2.2⟩⟩
        have := depthMap_le_of (m := m) (d := d) fun e he => ⟨(h' e he).1.2.1, (h' e he).2.2.1⟩
        omega
      · rintro ⟨hp, hdep, hw⟩
        have hd' := depthMap_le_iff.1 (show depthMap m ≤ d by omega)
        obtain ⟨l, h⟩ := key.2 fun e he =>
          ⟨((ih e he).1 d (hv.1 e he).1).2 ⟨(hp e he).1, (hd' e he).1, (hw e he).1⟩,
            ((ih e he).2 d (hv.1 e he).2).2 ⟨(hp e he).2, (hd' e he).2, (hw e he).2⟩⟩
        exact ⟨_, l, h, rfl⟩
  | described ds v ih =>
    intro d hv
    simp only [Variant.Valid] at hv
    simp only [Variant.Plain, Variant.depth, Variant.Timely]
    cases d with
    | zero =>
      constructor
      · rintro ⟨w, h⟩; simp only [Variant.sent] at h; cases h
      · rintro ⟨_, h, _⟩; omega
    | succ d =>
      simp only [Variant.sent]
      have := ih d hv
      by_cases h0 : ds = .ulong 0
      · rw [if_pos h0]
        exact ⟨fun ⟨_, h⟩ => (nomatch h), fun h => absurd h0 h.1.1⟩
      · rw [if_neg h0]
        simp only [andThen_arrives]
        constructor
        · rintro ⟨w, u, h, _⟩
          obtain ⟨a, b, c⟩ := this.1 ⟨u, h⟩
          exact ⟨⟨h0, a⟩, by omega, c⟩
        · rintro ⟨⟨_, a⟩, b, c⟩
          obtain ⟨u, h⟩ := this.2 ⟨a, by omega, c⟩
          exact ⟨_, u, h, rfl⟩

/-! ### Maps with keys of another type -/

section
variable {K : Type}

theorem sentValues_cons {d : Nat} {k : K} {v : Variant} {t l : List (K × Variant)} :
    sentValues d ((k, v) :: t) = .arrives l ↔ ∃ v' l', v.sent d = .arrives v' ∧
      sentValues d t = .arrives l' ∧ l = (k, v') :: l' := by
  simp only [sentValues, andThen_arrives, arrives_inj]
  constructor
  · rintro ⟨v', hv, l', hl, rfl⟩; exact ⟨v', l', hv, hl, rfl⟩
  · rintro ⟨v', l', hv, hl, rfl⟩; exact ⟨v', hv, l', hl, rfl⟩

/-- The keys stay, and in their order. -/
theorem sentValues_keys {d : Nat} : ∀ {m l : List (K × Variant)}, sentValues d m = .arrives l →
    l.map Prod.fst = m.map Prod.fst
  | [], l, h => by simp only [sentValues] at h; injection h with h; subst h; rfl
  | (k, v) :: t, l, h => by
    obtain ⟨v', l', _, ht, rfl⟩ := sentValues_cons.1 h
    simp [sentValues_keys ht]

variable [HKey K]

theorem nodup_of_keys : ∀ {l m : List (K × Variant)}, l.map Prod.fst = m.map Prod.fst →
    NodupKeys m → NodupKeys l := by
  intro l m h hn
  have key : ∀ x : List (K × Variant), NodupKeys x ↔
      (x.map Prod.fst).Pairwise fun a b => HKey.keq b a = false := fun x => by
    unfold NodupKeys; rw [List.pairwise_map]
  rw [key, h, ← key]; exact hn

theorem sent_values {env : Env} {d : Nat} {kd : Dec K} {ke : K → Bytes} :
    ∀ {l acc : List (K × Variant)},
    (∀ e ∈ l, Reads kd (ke e.1) e.1 ∧ HKey.hashOk e.1 = true ∧ SentAt env d e.2) →
    ((sentValues d l).andThen fun l => .arrives (insertAll acc l)).Answer []
      (mapLoop kd (decVar env d) l.length acc (mapContent ke Variant.venc l))
  | [], acc, _ => by simp only [sentValues]; exact rfl
  | (k, v) :: t, acc, h => by
    obtain ⟨hk, hh, hv⟩ := h (k, v) (by simp)
    have ih := fun acc => sent_values (acc := acc) fun e he => h e (List.mem_cons_of_mem _ he)
    have e1 : ∀ {α β γ : Type} (s : Fate α) (f : α → Fate β) (g : β → Fate γ),
        (s.andThen f).andThen g = s.andThen fun a => (f a).andThen g := by
      intro α β γ s f g; cases s <;> rfl
    show Fate.Answer _ [] (mapLoop kd (decVar env d) (t.length + 1) acc
      (ke k ++ v.venc ++ mapContent ke Variant.venc t))
    rw [List.append_assoc]
    unfold mapLoop
    rw [bind_ok (hk _)]
    simp only [sentValues]
    rw [e1]
    refine Fate.Answer.bind (hv (mapContent ke Variant.venc t)) fun v' _ => ?_
    rw [if_pos hh, e1]
    exact ih _

variable [Encode K] [DecodeF K]

theorem sent_hmap_any (hK : SizeExact K) (env : Env) (m : HMap K Variant)
    (hr : ∀ e ∈ m.entries, RoundTrips env e.1 ∧ HKey.hashOk e.1 = true)
    (hs : mapContentSize size size m.entries + 4 < 2 ^ 32) (rest : Bytes) :
    ((sentValues env.stackDepth m.entries).andThen fun l => .arrives (HMap.mk (insertAll [] l))).Answer rest
      (decode (HMap K Variant) env (enc m ++ rest)) := by
  obtain ⟨m⟩ := m
  simp only at hr hs ⊢
  have hcnt := mapContentSize_ge (ks := size) (vs := size) m
    (fun e he => (hK e.1) ▸ pos_of_roundTrips (hr e he).1) (fun e _ => size_pos e.2)
  obtain ⟨c, w, e, hc, hh⟩ := compoundHdr_reads (env := env) (c8 := FC.map8) (c32 := FC.map32)
    (hd := decodeMapHeader env) rfl rfl hs hcnt
  have e' : enc (⟨m⟩ : HMap K Variant) = c :: (w ++ mapContent enc enc m) := by
    show compoundHdr _ _ _ _ ++ mapContent enc enc m = _
    rw [e]; rfl
  have hlen : (mapContent enc enc m).length = mapContentSize size size m :=
    (mapContent_length m (fun e _ => hK e.1) (fun e _ => e.2.vsize_eq)).symm
  have hF : ∀ e ∈ m, Reads (decode K env) (enc e.1) e.1 ∧ HKey.hashOk e.1 = true ∧
      SentAt env env.stackDepth e.2 := by
    intro x hx
    refine ⟨(hr x hx).1, (hr x hx).2, sent_variant env x.2 ?_ _⟩
    have : size x.2 ≤ mapContentSize size size m := by
      clear hr hs hcnt e e' hlen hh
      induction m with
      | nil => cases hx
      | cons y t ih =>
        obtain ⟨k, v⟩ := y
        simp only [mapContentSize]
        rcases List.mem_cons.1 hx with rfl | hx
        · simp only; omega
        · have := ih hx; omega
    have e2 : size x.2 = x.2.vsize := rfl
    omega
  have key := sent_values (acc := []) hF
  have hA : ((sentValues env.stackDepth m).andThen fun l => .arrives (insertAll [] l)).Answer rest
      (decodeMapWith (decode K env) (decode Variant env) env c
        ((w ++ mapContent enc enc m) ++ rest)) := by
    have hin : decodeMapWith (decode K env) (decode Variant env) env c
          ((w ++ mapContent enc enc m) ++ rest) =
        withSlice (mapContentSize size size m) (mapLoop (decode K env) (decode Variant env)
          (m.length * 2 / 2) []) (mapContent enc enc m ++ rest) := by
      rw [List.append_assoc]
      exact bind_ok (f := fun header : CompoundHeader => withSlice header.size
        (mapLoop (decode K env) (decode Variant env) (header.count / 2) []))
        (hh (mapContent enc enc m ++ rest))
    rw [hin, Nat.mul_div_cancel _ (by omega)]
    unfold withSlice
    rw [if_neg (by simp; omega), List.take_left' hlen, List.drop_left' hlen]
    have e3 : mapLoop (decode K env) (decode Variant env) m.length [] (mapContent enc enc m) =
      mapLoop (decode K env) (decVar env env.stackDepth) m.length []
        (mapContent enc Variant.venc m) := rfl
    rw [e3]
    cases hm : sentValues env.stackDepth m with
    | arrives l =>
      rw [hm] at key
      have key : mapLoop (decode K env) (decVar env env.stackDepth) m.length []
        (mapContent enc Variant.venc m) = .ok ([], insertAll [] l) := key
      rw [key]
      exact rfl
    | refused =>
      rw [hm] at key
      obtain ⟨e, key⟩ := key
      rw [key]; exact ⟨_, rfl⟩
    | crashes p =>
      rw [hm] at key
      have key : mapLoop (decode K env) (decVar env env.stackDepth) m.length []
        (mapContent enc Variant.venc m) = .panic p := key
      rw [key]; exact rfl
  rw [e', List.cons_append, decode_cons]
  have := Fate.Answer.map (f := HMap.mk) hA
  cases hm : sentValues env.stackDepth m <;> rw [hm] at this <;> exact this

theorem sent_hmap (hK : SizeExact K) (env : Env) (m : HMap K Variant)
    (hr : ∀ e ∈ m.entries, RoundTrips env e.1 ∧ HKey.hashOk e.1 = true)
    (hn : NodupKeys m.entries)
    (hs : mapContentSize size size m.entries + 4 < 2 ^ 32) (rest : Bytes) :
    ((sentValues env.stackDepth m.entries).andThen fun l => .arrives (HMap.mk l)).Answer rest
      (decode (HMap K Variant) env (enc m ++ rest)) := by
  have := sent_hmap_any hK env m hr hs rest
  cases hm : sentValues env.stackDepth m.entries with
  | arrives l =>
    rw [hm] at this
    have e := insertAll_fresh l [] (nodup_of_keys (sentValues_keys hm) hn)
    rw [List.nil_append] at e
    have this : _ = Res.ok (rest, HMap.mk (insertAll [] l)) := this
    rw [e] at this
    exact this
  | refused => rw [hm] at this; exact this
  | crashes p => rw [hm] at this; exact this
end

end Amqp
