import Verif.Proofs.ModelData2

namespace Calliope
namespace ModelData

open Grid Dict

variable {V : Type}

/-! ### Definitions stay plain -/

theorem flat_overKeys : ∀ (d : Def V), (∀ j w, d.get1 j = some w → ∃ a, w = .leaf a) → d.WF →
    ∀ e : Def V, (∀ j w, e.get1 j = some w → ∃ a, w = .leaf a) → ∀ j w,
      (overKeys e d).get1 j = some w → ∃ a, w = .leaf a
  | .nil, _, _, e, he => he
  | .sub i x y, hdf, _, _, _ => by
      obtain ⟨a, ha⟩ := hdf i (.dict x) (by simp [get1])
      cases ha
  | .leaf i b y, hdf, hww, e, he => by
      rw [overKeys_put]
      refine flat_overKeys y (fun i' w hi => hdf i' w ?_) hww.2 _ ?_
      · simp only [get1]
        by_cases hii : i = i'
        · subst hii; exact absurd (keys_of_get1 hi) hww.1
        · rw [if_neg hii]; exact hi
      · intro i' w hi
        rw [get1_put1] at hi
        by_cases hii : i' = i
        · simp only [hii, if_true, Option.some.injEq] at hi
          exact ⟨b, hi.symm⟩
        · rw [if_neg hii] at hi; exact he i' w hi

/-- A dictionary of values. -/
def FlatVal (v : Option (Val (Datum V))) : Prop :=
  ∀ s, v = some (.dict s) → s.WF ∧ ∀ k w, s.get1 k = some w → ∃ a, w = .leaf a

theorem dict_wf {d : Def V} (hw : d.WF) {p : Key} {s : Def V} (h : d.get1 p = some (.dict s)) : s.WF := by
  induction d with
  | nil => cases h
  | leaf k a r ih =>
    simp only [get1] at h
    split at h
    · cases h
    · exact ih hw.2 h
  | sub k x r _ ih =>
    simp only [get1] at h
    split at h
    · simp only [Option.some.injEq, Val.dict.injEq] at h; subst h; exact hw.2.1
    · exact ih hw.2.2 h

theorem flatVal_get1 {d : Def V} (hw : d.WF) (hf : Flat d) (p : Key) : FlatVal (d.get1 p) :=
  fun s hs => ⟨dict_wf hw hs, hf p s hs⟩

theorem over_flat {x y : Option (Val (Datum V))} (hx : FlatVal x) (hy : FlatVal y) {s : Def V}
    (h : over x y = some (.dict s)) : ∀ k w, s.get1 k = some w → ∃ a, w = .leaf a := by
  rcases y with _ | ((_ | a) | d)
  · exact (hx s h).2
  · rcases x with _ | (x | e)
    · cases h
    · cases h
    · exact (hx s (by simpa [over] using h)).2
  · cases h
  · cases d with
    | nil =>
      rcases x with _ | v
      · simp only [over, Option.some.injEq, Val.dict.injEq] at h
        subst h
        intro k w hk; cases hk
      · exact (hx s h).2
    | leaf j a r =>
      simp only [over, Option.some.injEq, Val.dict.injEq] at h
      subst h
      obtain ⟨h1, h2⟩ := hy _ rfl
      apply flat_overKeys _ h2 h1
      rcases x with _ | (x | e)
      · intro k w hk; cases hk
      · intro k w hk; cases hk
      · exact (hx e rfl).2
    | sub j a r =>
      simp only [over, Option.some.injEq, Val.dict.injEq] at h
      subst h
      obtain ⟨h1, h2⟩ := hy _ rfl
      apply flat_overKeys _ h2 h1
      rcases x with _ | (x | e)
      · intro k w hk; cases hk
      · intro k w hk; cases hk
      · exact (hx e rfl).2

theorem flat_union {b d u : Def V} (hb : Flat b) (hbw : b.WF) (hd : d.WF) (hf : Flat d)
    (h : b.union d true = .ok u) : Flat u := by
  intro p s hs
  rw [union_get1 hb hd hf h p] at hs
  exact over_flat (flatVal_get1 hbw hb p) (flatVal_get1 hd hf p) hs

theorem overKeys_append : ∀ (s e : Def V), s.WF → (∀ k ∈ s.keys, k ∉ e.keys) → overKeys e s = e.append s
  | .nil, e, _, _ => (append_nil e).symm
  | .leaf k a r, e, hw, hd => by
      have hp : e.put1 k (.leaf a) = e.append (.leaf k a .nil) := by
        have := put1_append_right e .nil k (.leaf a) (hd k (by simp [keys]))
        rw [append_nil] at this
        rw [this]; rfl
      simp only [overKeys]
      rw [overKeys_append r _ hw.2, hp, append_assoc]
      · rfl
      · intro j hj
        rw [hp, keys_append]
        simp only [keys, List.mem_append, List.mem_singleton, not_or]
        exact ⟨hd j (by simp [keys, hj]), fun e => hw.1 (e ▸ hj)⟩
  | .sub k a r, e, hw, hd => by
      have hp : e.put1 k (.dict a) = e.append (.sub k a .nil) := by
        have := put1_append_right e .nil k (.dict a) (hd k (by simp [keys]))
        rw [append_nil] at this
        rw [this]; rfl
      simp only [overKeys]
      rw [overKeys_append r _ hw.2.2, hp, append_assoc]
      · rfl
      · intro j hj
        rw [hp, keys_append]
        simp only [keys, List.mem_append, List.mem_singleton, not_or]
        exact ⟨hd j (by simp [keys, hj]), fun e => hw.1 (e ▸ hj)⟩

theorem overKeys_nil {s : Def V} (hw : s.WF) : overKeys .nil s = s := by
  rw [overKeys_append s .nil hw (by simp [keys])]; rfl

theorem over_none {v : Option (Val (Datum V))} (hv : ∀ s, v = some (.dict s) → s.WF) : over none v = v := by
  rcases v with _ | ((_ | a) | s)
  · rfl
  · rfl
  · rfl
  · have := overKeys_nil (hv s rfl)
    cases s with
    | nil => rfl
    | leaf j a r => simp only [over, dictOf, this]
    | sub j a r => simp only [over, dictOf, this]

/-- The definition of a technology at a node (or at the top level, where `v` is its own definition). -/
theorem inheritTech_ok {m : Source V} (hs : Sound m) {t : Key} {v : Val (Datum V)} {d : Def V}
    (hv : ∀ x, v = .dict x → Plain x) (h : inheritTech m t v = .ok d) :
    d.WF ∧ Flat d ∧ (∃ b, m.techs.get1 t = some (.dict b)) ∧ (∀ a, v ≠ .leaf (some a)) ∧
      ∀ p, d.get1 p = over ((written (m.tables.get1 t)).get1 p)
        (over ((written (m.techs.get1 t)).get1 p) ((written (some v)).get1 p)) := by
  unfold inheritTech at h
  have hi : ∀ x, itemDef v = .ok x → x = written (some v) ∧ x.WF ∧ Flat x := by
    intro x hx
    rcases v with (_ | a) | y
    · simp only [itemDef, Except.ok.injEq] at hx
      subst hx
      exact ⟨rfl, trivial, fun p s hp => by cases hp⟩
    · cases hx
    · simp only [itemDef, Except.ok.injEq] at hx
      subst hx
      exact ⟨rfl, (hv _ rfl).wf, (hv _ rfl).flat⟩
  rcases h1 : itemDef v with e | x
  · rw [h1] at h
    rcases h2 : baseDef m t with e' | b
    · rw [h2] at h; cases h
    · rw [h2] at h; cases h
  rw [h1] at h
  rcases h2 : baseDef m t with e' | b
  · rw [h2] at h; cases h
  rw [h2] at h
  simp only [] at h
  obtain ⟨rfl, hxw, hxf⟩ := hi x h1
  have hb : m.techs.get1 t = some (.dict b) := by
    unfold baseDef at h2
    rcases hg : m.techs.get1 t with _ | (a | y)
    · rw [hg] at h2; cases h2
    · rw [hg] at h2; cases h2
    · rw [hg] at h2
      simp only [Except.ok.injEq] at h2
      rw [h2]
  have hbp := hs.tech t b hb
  have hleaf : ∀ a, v ≠ .leaf (some a) := by
    rintro a rfl; cases h1
  rcases h3 : b.union (written (some v)) true with e | u
  · rw [h3] at h; cases h
  rw [h3] at h
  simp only [] at h
  have hb' : written (m.techs.get1 t) = b := by rw [hb]; rfl
  have hu1 := union_get1 hbp.flat hxw hxf h3
  have huw := WF_union _ _ _ _ hbp.wf hxw h3
  have huf := flat_union hbp.flat hbp.wf hxw hxf h3
  rcases h4 : m.tables.get1 t with _ | (a | tb)
  · rw [h4] at h
    simp only [Except.ok.injEq] at h
    subst h
    refine ⟨huw, huf, ⟨b, hb⟩, hleaf, fun p => ?_⟩
    rw [← hb'] at hu1
    rw [← hu1 p]
    exact (over_none (fun s hs => dict_wf huw hs)).symm
  · rw [h4] at h
    simp only [Except.ok.injEq] at h
    subst h
    refine ⟨huw, huf, ⟨b, hb⟩, hleaf, fun p => ?_⟩
    rw [← hb'] at hu1
    rw [← hu1 p]
    exact (over_none (fun s hs => dict_wf huw hs)).symm
  · rw [h4] at h
    have htp := hs.table t tb h4
    refine ⟨WF_union _ _ _ _ htp.wf huw h, flat_union htp.flat htp.wf huw huf h, ⟨b, hb⟩, hleaf, fun p => ?_⟩
    rw [union_get1 htp.flat huw huf h p, hu1 p, hb]
    rfl

theorem put1_same : ∀ (e : Def V) (k : Key) (v : Val (Datum V)), e.get1 k = some v → e.put1 k v = e
  | .nil, _, _, h => by cases h
  | .leaf j a r, k, v, h => by
      simp only [get1] at h
      simp only [put1]
      split at h
      · simp only [Option.some.injEq] at h
        subst h
        rename_i hj
        simp [hj]
      · rename_i hj
        rw [if_neg hj, put1_same r k v h]
  | .sub j a r, k, v, h => by
      simp only [get1] at h
      simp only [put1]
      split at h
      · simp only [Option.some.injEq] at h
        subst h
        rename_i hj
        simp [hj]
      · rename_i hj
        rw [if_neg hj, put1_same r k v h]

theorem overKeys_same : ∀ (s e : Def V), s.WF → (∀ k v, s.get1 k = some v → e.get1 k = some v) → overKeys e s = e
  | .nil, _, _, _ => rfl
  | .leaf k a r, e, hw, h => by
      simp only [overKeys]
      rw [put1_same e k (.leaf a) (h k _ (by simp [get1]))]
      refine overKeys_same r e hw.2 (fun j v hj => h j v ?_)
      simp only [get1]
      by_cases hk : k = j
      · subst hk; exact absurd (keys_of_get1 hj) hw.1
      · rw [if_neg hk]; exact hj
  | .sub k a r, e, hw, h => by
      simp only [overKeys]
      rw [put1_same e k (.dict a) (h k _ (by simp [get1]))]
      refine overKeys_same r e hw.2.2 (fun j v hj => h j v ?_)
      simp only [get1]
      by_cases hk : k = j
      · subst hk; exact absurd (keys_of_get1 hj) hw.1
      · rw [if_neg hk]; exact hj

theorem over_self {v : Option (Val (Datum V))} (hv : ∀ s, v = some (.dict s) → s.WF) : over v v = v := by
  rcases v with _ | ((_ | a) | s)
  · rfl
  · rfl
  · rfl
  · have := overKeys_same s s (hv s rfl) (fun _ _ h => h)
    cases s with
    | nil => rfl
    | leaf j a r => simp only [over, dictOf, this]
    | sub j a r => simp only [over, dictOf, this]

theorem truthVal_eq (ctx : Ctx V) (v : Val (Datum V)) : truthVal ctx v = yes ctx v := by
  rcases v with (_ | (x | xs | xs)) | d
  · rfl
  · rcases x with b | v | s <;> rfl
  · rfl
  · rfl
  · cases d <;> rfl

theorem active_eq (ctx : Ctx V) (d : Def V) : active ctx d = on ctx (d.get1 "active") := by
  unfold active on
  rcases d.get1 "active" with _ | v
  · rfl
  · exact truthVal_eq ctx v

/-- The definition of a technology at the top level. -/
theorem inheritTech_top {m : Source V} (hs : Sound m) {t : Key} {v : Val (Datum V)} {d : Def V}
    (hv : m.techs.get1 t = some v) (h : inheritTech m t v = .ok d) :
    d.WF ∧ Flat d ∧ ∀ p, d.get1 p = techSetting m t p := by
  obtain ⟨h1, h2, ⟨b, hb⟩, _, h5⟩ := inheritTech_ok hs (fun x hx => hs.tech t x (by rw [hv, hx])) h
  refine ⟨h1, h2, fun p => ?_⟩
  rw [h5 p]
  rw [hb] at hv
  cases hv
  unfold techSetting
  rw [hb]
  congr 1
  exact over_self (fun s hs' => dict_wf (hs.tech t b hb).wf hs')

/-! ### The loop over definitions -/

theorem inheritLoop_ok {ctx : Ctx V} {f : Key → Val (Datum V) → Except Err (Def V)} :
    ∀ {l : List (Key × Val (Datum V))} {on off}, inheritLoop ctx f l = .ok (on, off) →
      (on.map Prod.fst).Sublist (l.map Prod.fst) ∧
      (∀ n d, (n, d) ∈ on ↔ ∃ v, (n, v) ∈ l ∧ f n v = .ok d ∧ active ctx d = true) ∧
      (∀ n, n ∈ off ↔ ∃ v d, (n, v) ∈ l ∧ f n v = .ok d ∧ active ctx d = false) ∧
      (∀ n v, (n, v) ∈ l → ∃ d, f n v = .ok d)
  | [], on, off, h => by
      simp only [inheritLoop, Except.ok.injEq, Prod.mk.injEq] at h
      obtain ⟨rfl, rfl⟩ := h
      simp
  | (k, v) :: l, on, off, h => by
      simp only [inheritLoop] at h
      rcases hf : f k v with e | d
      · rw [hf] at h; cases h
      rw [hf] at h
      simp only [] at h
      rcases hl : inheritLoop ctx f l with e | ⟨on', off'⟩
      · rw [hl] at h; cases h
      rw [hl] at h
      simp only [Except.ok.injEq] at h
      obtain ⟨h1, h2, h3, h4⟩ := inheritLoop_ok hl
      by_cases ha : active ctx d = true
      · rw [if_pos ha] at h
        simp only [Prod.mk.injEq] at h
        obtain ⟨rfl, rfl⟩ := h
        refine ⟨by simpa using h1, fun n d' => ?_, fun n => ?_, fun n v' hn => ?_⟩
        · simp only [List.mem_cons, h2, Prod.mk.injEq]
          constructor
          · rintro (⟨rfl, rfl⟩ | ⟨v', hv', hr⟩)
            · exact ⟨v, .inl ⟨rfl, rfl⟩, hf, ha⟩
            · exact ⟨v', .inr hv', hr⟩
          · rintro ⟨v', ⟨rfl, rfl⟩ | hv', hr⟩
            · left
              rw [hf] at hr
              exact ⟨rfl, by simpa using hr.1.symm⟩
            · exact .inr ⟨v', hv', hr⟩
        · simp only [List.mem_cons, h3, Prod.mk.injEq]
          constructor
          · rintro ⟨v', d', hv', hr⟩
            exact ⟨v', d', .inr hv', hr⟩
          · rintro ⟨v', d', ⟨rfl, rfl⟩ | hv', hr⟩
            · rw [hf] at hr
              simp only [Except.ok.injEq] at hr
              rw [← hr.1, ha] at hr
              cases hr.2
            · exact ⟨v', d', hv', hr⟩
        · rcases List.mem_cons.1 hn with hn | hn
          · simp only [Prod.mk.injEq] at hn
            obtain ⟨rfl, rfl⟩ := hn
            exact ⟨d, hf⟩
          · exact h4 n v' hn
      · rw [if_neg ha] at h
        simp only [Prod.mk.injEq] at h
        obtain ⟨rfl, rfl⟩ := h
        refine ⟨h1.trans (by simp), fun n d' => ?_, fun n => ?_, fun n v' hn => ?_⟩
        · simp only [List.mem_cons, h2, Prod.mk.injEq]
          constructor
          · rintro ⟨v', hv', hr⟩
            exact ⟨v', .inr hv', hr⟩
          · rintro ⟨v', ⟨rfl, rfl⟩ | hv', hr⟩
            · rw [hf] at hr
              simp only [Except.ok.injEq] at hr
              rw [← hr.1] at hr
              exact absurd hr.2 ha
            · exact ⟨v', hv', hr⟩
        · simp only [List.mem_cons, h3, Prod.mk.injEq]
          constructor
          · rintro (rfl | ⟨v', d', hv', hr⟩)
            · exact ⟨v, d, .inl ⟨rfl, rfl⟩, hf, by simpa using ha⟩
            · exact ⟨v', d', .inr hv', hr⟩
          · rintro ⟨v', d', ⟨rfl, rfl⟩ | hv', hr⟩
            · exact .inl rfl
            · exact .inr ⟨v', d', hv', hr⟩
        · rcases List.mem_cons.1 hn with hn | hn
          · simp only [Prod.mk.injEq] at hn
            obtain ⟨rfl, rfl⟩ := hn
            exact ⟨d, hf⟩
          · exact h4 n v' hn

theorem mem_items {d : Dict (Datum V)} (hw : d.WF) {k : Key} {v : Val (Datum V)} :
    (k, v) ∈ items d ↔ d.get1 k = some v := by
  constructor
  · intro h
    induction d with
    | nil => cases h
    | leaf j a r ih =>
      simp only [items, List.mem_cons, Prod.mk.injEq] at h
      simp only [get1]
      rcases h with ⟨rfl, rfl⟩ | h
      · simp
      · have := ih hw.2 h
        rw [if_neg (fun e : j = k => hw.1 (by rw [e]; exact keys_of_get1 this))]; exact this
    | sub j a r _ ih =>
      simp only [items, List.mem_cons, Prod.mk.injEq] at h
      simp only [get1]
      rcases h with ⟨rfl, rfl⟩ | h
      · simp
      · have := ih hw.2.2 h
        rw [if_neg (fun e : j = k => hw.1 (by rw [e]; exact keys_of_get1 this))]; exact this
  · intro h
    rw [← lookup_items] at h
    exact mem_of_lookup h

theorem lookup_of_mem {β : Type} {l : List (String × β)} (hn : (l.map Prod.fst).Nodup) {k : String} {b : β}
    (h : (k, b) ∈ l) : l.lookup k = some b := by
  induction l with
  | nil => cases h
  | cons x l ih =>
    obtain ⟨j, c⟩ := x
    simp only [List.map_cons, List.nodup_cons] at hn
    rw [List.lookup_cons]
    rcases List.mem_cons.1 h with h | h
    · simp only [Prod.mk.injEq] at h
      obtain ⟨rfl, rfl⟩ := h
      simp
    · rw [beq_false_of_ne (fun e => hn.1 (List.mem_map.2 ⟨(k, b), h, e⟩))]
      exact ih hn.2 h

/-! ### One node -/

theorem nodeRefs_ok {ctx : Ctx V} : ∀ {l : List (Key × Val (Datum V))} {refs : List Key},
    nodeRefs ctx l = .ok refs →
    (∀ p, p ∈ refs ↔ ∃ t d, (t, .dict d) ∈ l ∧ active ctx d = true ∧ p ∈ d.keys) ∧
    (∀ t d, (t, .dict d) ∈ l → active ctx d = true → "base_tech" ∉ d.keys)
  | [], refs, h => by
      simp only [nodeRefs, Except.ok.injEq] at h
      subst h; simp
  | (k, v) :: l, refs, h => by
      simp only [nodeRefs] at h
      rcases hl : nodeRefs ctx l with e | out
      · rw [hl] at h; cases h
      obtain ⟨h1, h2⟩ := nodeRefs_ok hl
      rw [hl] at h
      rcases v with (_ | a) | d
      · simp only [Except.ok.injEq] at h
        subst h
        simpa using ⟨h1, h2⟩
      · cases h
      · simp only [] at h
        by_cases ha : active ctx d = true
        · rw [if_pos ha] at h
          split at h
          · cases h
          · rename_i hb
            simp only [Except.ok.injEq] at h
            subst h
            refine ⟨fun p => ?_, fun t d' ht => ?_⟩
            · simp only [List.mem_append, h1, List.mem_cons, Prod.mk.injEq, Val.dict.injEq]
              constructor
              · rintro (hp | ⟨t, d', hd, hr⟩)
                · exact ⟨k, d, .inl ⟨rfl, rfl⟩, ha, hp⟩
                · exact ⟨t, d', .inr hd, hr⟩
              · rintro ⟨t, d', ⟨rfl, rfl⟩ | hd, hr⟩
                · exact .inl hr.2
                · exact .inr ⟨t, d', hd, hr⟩
            · rcases List.mem_cons.1 ht with ht | ht
              · simp only [Prod.mk.injEq, Val.dict.injEq] at ht
                obtain ⟨rfl, rfl⟩ := ht
                intro _
                simpa using hb
              · exact h2 t d' ht
        · rw [if_neg ha] at h
          simp only [Except.ok.injEq] at h
          subst h
          refine ⟨fun p => ?_, fun t d' ht => ?_⟩
          · simp only [h1, List.mem_cons, Prod.mk.injEq, Val.dict.injEq]
            constructor
            · rintro ⟨t, d', hd, hr⟩
              exact ⟨t, d', .inr hd, hr⟩
            · rintro ⟨t, d', ⟨rfl, rfl⟩ | hd, hr⟩
              · exact absurd hr.1 ha
              · exact ⟨t, d', hd, hr⟩
          · rcases List.mem_cons.1 ht with ht | ht
            · simp only [Prod.mk.injEq, Val.dict.injEq] at ht
              obtain ⟨rfl, rfl⟩ := ht
              intro h'; exact absurd h' ha
            · exact h2 t d' ht

theorem expand_ok {refs ix : List Key} {ds : DS V} (h : expand refs ds = .ok ix) :
    (∀ p ∈ refs, p ∈ ds.names) ∧
    (∀ p, p ∈ ix ↔ p ∈ refs ∨ (p = "carrier_in" ∨ p = "carrier_out") ∧ p ∈ ds.names) ∧
    "carrier_in" ∉ refs ∧ "carrier_out" ∉ refs := by
  unfold expand at h
  split at h
  · cases h
  rename_i h1
  split at h
  · cases h
  rename_i h2
  simp only [Except.ok.injEq] at h
  subst h
  have hr : ∀ p ∈ refs, p ∈ ds.names := by
    intro p hp
    simp only [List.any_eq_true, not_exists, not_and] at h1
    have := h1 p hp
    simpa using this
  simp only [List.any_cons, List.any_nil, Bool.or_false, Bool.or_eq_true, Bool.and_eq_true, List.contains_eq_mem,
    decide_eq_true_eq, not_or, not_and] at h2
  refine ⟨hr, fun p => ?_, fun hc => h2.1 hc (hr _ hc), fun hc => h2.2 hc (hr _ hc)⟩
  simp [List.mem_filter]

/-- The parts of a node. -/
structure NodeParts (ctx : Ctx V) (m : Source V) (links : List (LinkAt V)) (node : Key) (d : Def V)
    (x : NodeData V) : Prop where
  node_eq : x.node = node
  parts : ∃ techs refs defs off, techsOf d = .ok techs ∧ nodeRefs ctx (items techs) = .ok refs ∧
    inheritLoop ctx (inheritTech m) (items techs) = .ok (defs, off) ∧
    (∀ y ∈ defs, isLink y.2 = false) ∧
    (∀ y ∈ linksAt links node, y.1 ∉ defs.map Prod.fst) ∧
    defDs ctx "techs" ⟨[], []⟩ (defs ++ linksAt links node) = .ok x.ds ∧
    expand refs x.ds = .ok x.indexed

theorem nodeData_ok {ctx : Ctx V} {m : Source V} {links : List (LinkAt V)} {node : Key} {d : Def V}
    {x : NodeData V} (h : nodeData ctx m links node d = .ok x) : NodeParts ctx m links node d x := by
  unfold nodeData at h
  rcases h1 : techsOf d with e | techs
  · rw [h1] at h; cases h
  rw [h1] at h
  simp only [] at h
  rcases h2 : nodeRefs ctx (items techs) with e | refs
  · rw [h2] at h; cases h
  rw [h2] at h
  simp only [] at h
  rcases h3 : inheritLoop ctx (inheritTech m) (items techs) with e | ⟨defs, off⟩
  · rw [h3] at h; cases h
  rw [h3] at h
  simp only [] at h
  split at h
  · cases h
  rename_i h4
  split at h
  · cases h
  rename_i h5
  rcases h6 : defDs ctx "techs" ⟨[], []⟩ (defs ++ linksAt links node) with e | ds
  · rw [h6] at h; cases h
  rw [h6] at h
  simp only [] at h
  rcases h7 : expand refs ds with e | ix
  · rw [h7] at h; cases h
  rw [h7] at h
  simp only [Except.ok.injEq] at h
  subst h
  refine ⟨rfl, techs, refs, defs, off, h1, h2, h3, ?_, ?_, h6, h7⟩
  · intro y hy
    simp only [List.any_eq_true, not_exists, not_and, Bool.not_eq_true] at h4
    exact h4 y hy
  · intro y hy
    simp only [List.any_eq_true, not_exists, not_and, Bool.not_eq_true] at h5
    have := h5 y hy
    simpa using this

theorem nodesData_ok {ctx : Ctx V} {m : Source V} {links : List (LinkAt V)} :
    ∀ {nodes : List (Key × Def V)} {l : List (NodeData V)}, nodesData ctx m links nodes = .ok l →
      l.map NodeData.node = nodes.map Prod.fst ∧
      (∀ x ∈ l, ∃ d, (x.node, d) ∈ nodes ∧ NodeParts ctx m links x.node d x) ∧
      (∀ n d, (n, d) ∈ nodes → ∃ x ∈ l, NodeParts ctx m links n d x)
  | [], l, h => by
      simp only [nodesData, Except.ok.injEq] at h
      subst h; simp
  | (n, d) :: nodes, l, h => by
      simp only [nodesData] at h
      rcases h1 : nodeData ctx m links n d with e | x
      · rw [h1] at h; cases h
      rw [h1] at h
      simp only [] at h
      rcases h2 : nodesData ctx m links nodes with e | out
      · rw [h2] at h; cases h
      rw [h2] at h
      simp only [Except.ok.injEq] at h
      subst h
      obtain ⟨a1, a2, a3⟩ := nodesData_ok h2
      have hx := nodeData_ok h1
      refine ⟨by simp [a1, hx.node_eq], ?_, ?_⟩
      · intro y hy
        rcases List.mem_cons.1 hy with rfl | hy
        · exact ⟨d, by simp [hx.node_eq], by rw [hx.node_eq]; exact hx⟩
        · obtain ⟨d', h', h''⟩ := a2 y hy
          exact ⟨d', by simp [h'], h''⟩
      · intro n' d' hn
        rcases List.mem_cons.1 hn with hn | hn
        · simp only [Prod.mk.injEq] at hn
          obtain ⟨rfl, rfl⟩ := hn
          exact ⟨x, by simp, hx⟩
        · obtain ⟨y, hy, h'⟩ := a3 n' d' hn
          exact ⟨y, by simp [hy], h'⟩

/-! ### The whole -/

/-- The parts of the inputs. -/
structure Parts [DecidableEq V] (ctx : Ctx V) (m : Source V) (ds0 ds : DS V) where
  nodes : List (Key × Def V)
  offNodes : List Key
  techs : List (Key × Def V)
  offTechs : List Key
  links : List (LinkAt V)
  missing : List Key
  l : List (NodeData V)
  nds : DS V
  new : DS V
  h1 : inheritLoop ctx inheritNode (items m.nodes) = .ok (nodes, offNodes)
  h2 : inheritLoop ctx (inheritTech m) (items m.techs) = .ok (techs, offTechs)
  h3 : placeLinks ctx (fun n => (nodes.map Prod.fst).contains n ||
    (labelsOf (offNodes.foldl (dropLabel "nodes") ds0).coords "nodes").contains n) techs = .ok (links, missing)
  h4 : nodesData ctx m links nodes = .ok l
  h5 : defDs ctx "nodes" ⟨[], []⟩ (nodes.map (fun x => (x.1, x.2.del1 "techs"))) = .ok nds
  h6 : mergeNodes (combine l) nds = .ok new
  h7 : ds = addToDataset (missing.foldl (dropLabel "techs") (offTechs.foldl (dropLabel "techs")
    (offNodes.foldl (dropLabel "nodes") ds0))) new

theorem addNodeTechData_ok [DecidableEq V] {ctx : Ctx V} {m : Source V} {ds0 ds : DS V}
    (h : addNodeTechData ctx m ds0 = .ok ds) : Nonempty (Parts ctx m ds0 ds) := by
  unfold addNodeTechData at h
  rcases h1 : inheritLoop ctx inheritNode (items m.nodes) with e | ⟨nodes, offNodes⟩
  · rw [h1] at h; cases h
  rw [h1] at h
  simp only [] at h
  rcases h2 : inheritLoop ctx (inheritTech m) (items m.techs) with e | ⟨techs, offTechs⟩
  · rw [h2] at h; cases h
  rw [h2] at h
  simp only [] at h
  rcases h3 : placeLinks ctx (fun n => (nodes.map Prod.fst).contains n ||
    (labelsOf (offNodes.foldl (dropLabel "nodes") ds0).coords "nodes").contains n) techs with e | ⟨links, missing⟩
  · rw [h3] at h; cases h
  rw [h3] at h
  simp only [] at h
  rcases h4 : nodesData ctx m links nodes with e | l
  · rw [h4] at h; cases h
  rw [h4] at h
  simp only [] at h
  rcases h5 : defDs ctx "nodes" ⟨[], []⟩ (nodes.map (fun x => (x.1, x.2.del1 "techs"))) with e | nds
  · rw [h5] at h; cases h
  rw [h5] at h
  simp only [] at h
  rcases h6 : mergeNodes (combine l) nds with e | new
  · rw [h6] at h; cases h
  rw [h6] at h
  simp only [Except.ok.injEq] at h
  exact ⟨⟨nodes, offNodes, techs, offTechs, links, missing, l, nds, new, h1, h2, h3, h4, h5, h6, h.symm⟩⟩

end ModelData
end Calliope
