import Verif.CalHead.Spec
import Verif.H5Head.Props

namespace Verif.CalHead
open Verif.Pol (Str)
open Verif.H5Head

variable {V : Type}

/-! ## The statements of the writer -/

theorem build_iff {κ : Type} {f : Str → κ → Option (Option (Node V))} {p : List (Str × κ)} (hp : (p.map (·.1)).Nodup)
    {h : List (Str × Node V)} (hw : build f p = some h) : ∀ e ∈ p, f e.1 e.2 = some (lookup h e.1) := by
  unfold build at hw
  rw [Option.map_eq_some_iff] at hw
  obtain ⟨m, hm, rfl⟩ := hw
  rw [seq_iff] at hm
  have key : ∀ (p : List (Str × κ)) (m : List (Option (Str × Node V))), (p.map (·.1)).Nodup →
      p.map (fun e => (f e.1 e.2).map (fun x => x.map (fun y => (e.1, y)))) = m.map some →
      (∀ a ∈ m.filterMap id, a.1 ∈ p.map (·.1)) ∧ ((m.filterMap id).map (·.1)).Nodup ∧
      ∀ e ∈ p, f e.1 e.2 = some (lookup (m.filterMap id) e.1) := by
    intro p
    induction p with
    | nil =>
      intro m _ h
      cases m <;> simp_all
    | cons e p ih =>
      intro m hn h
      cases m with
      | nil => simp at h
      | cons x m =>
        rw [List.map_cons, List.nodup_cons] at hn
        simp only [List.map_cons, List.cons.injEq] at h
        obtain ⟨h1, h2⟩ := h
        obtain ⟨i1, i2, i3⟩ := ih m hn.2 h2
        rw [Option.map_eq_some_iff] at h1
        obtain ⟨y, hy, rfl⟩ := h1
        cases y with
        | none =>
          simp only [Option.map_none, List.filterMap_cons, id_eq]
          refine ⟨fun a ha => List.mem_cons_of_mem _ (i1 a ha), i2, ?_⟩
          intro g hg
          rcases List.mem_cons.1 hg with rfl | hg
          · rw [hy]
            congr 1
            exact (lookup_none.2 (fun hc => by
              obtain ⟨a, ha, hae⟩ := List.mem_map.1 hc
              exact hn.1 (hae ▸ i1 a ha))).symm
          · exact i3 g hg
        | some z =>
          simp only [Option.map_some, List.filterMap_cons, id_eq]
          have hnd : (((e.1, z) :: m.filterMap id).map (·.1)).Nodup := by
            rw [List.map_cons, List.nodup_cons]
            refine ⟨fun hc => ?_, i2⟩
            obtain ⟨a, ha, hae⟩ := List.mem_map.1 hc
            exact hn.1 (hae ▸ i1 a ha)
          refine ⟨?_, hnd, ?_⟩
          · intro a ha
            rcases List.mem_cons.1 ha with rfl | ha
            · simp
            · exact List.mem_cons_of_mem _ (i1 a ha)
          · intro g hg
            rcases List.mem_cons.1 hg with rfl | hg
            · exact hy.trans (congrArg some (lookup_mem hnd List.mem_cons_self).symm)
            · have hne : ¬ e.1 = g.1 := fun hc => hn.1 (hc ▸ List.mem_map.2 ⟨g, hg, rfl⟩)
              rw [i3 g hg]
              unfold lookup
              rw [List.find?_cons_of_neg (by simpa using hne)]
              rfl
  exact (key p m hp hm).2.2

theorem build_some {κ : Type} {f : Str → κ → Option (Option (Node V))} {p : List (Str × κ)} (h : ∀ e ∈ p, (f e.1 e.2).isSome) :
    ∃ h, build f p = some h := by
  unfold build
  have key : ∃ m, seq (p.map (fun e => (f e.1 e.2).map (fun x => x.map (fun y => (e.1, y))))) = some m := by
    induction p with
    | nil => exact ⟨[], rfl⟩
    | cons e p ih =>
      obtain ⟨m, hm⟩ := ih (fun g hg => h g (List.mem_cons_of_mem _ hg))
      obtain ⟨x, hx⟩ := Option.isSome_iff_exists.1 (h e List.mem_cons_self)
      refine ⟨(x.map (fun y => (e.1, y))) :: m, ?_⟩
      rw [seq_iff, List.map_cons, seq_iff.1 hm, hx]
      rfl
  obtain ⟨m, hm⟩ := key
  exact ⟨_, by rw [hm]; rfl⟩

theorem plan_nodup : (plan.map (·.1)).Nodup := by decide +kernel
theorem plan_num : ∀ e ∈ plan, e.2 = Kind.num → e.1 ∈ numNames ∧ e.1 ∈ required := by decide +kernel
theorem plan_nat : ∀ e ∈ plan, e.2 = Kind.nat → e.1 ∈ natNames ∧ e.1 ∈ required := by decide +kernel
theorem plan_txt : ∀ e ∈ plan, e.2 = Kind.txt → e.1 ∈ txtNames ∧ e.1 ∈ required := by decide +kernel
theorem plan_optTxt : ∀ e ∈ plan, e.2 = Kind.optTxt → e.1 ∈ txtNames := by decide +kernel
theorem plan_ellipsoid : ∀ e ∈ plan, e.2 = Kind.ellipsoid → e.1 = name "ellipsoid" := by decide +kernel

theorem write_iff {o : Obj V} {h : List (Str × Node V)} (hw : write o = some h) :
    ∀ e ∈ plan, node o e.1 e.2 = some (lookup h e.1) := build_iff plan_nodup hw

theorem nodes {o : Obj V} (hg : Good o) : ∀ e ∈ plan, (node o e.1 e.2).isSome := by
  intro e he
  obtain ⟨n, k⟩ := e
  cases k with
  | version => rfl
  | num =>
    obtain ⟨h1, h2⟩ := plan_num _ he rfl
    simpa [node] using hg.num n h1 h2
  | nat =>
    obtain ⟨h1, h2⟩ := plan_nat _ he rfl
    simpa [node] using hg.nat n h1 h2
  | txt =>
    obtain ⟨h1, h2⟩ := plan_txt _ he rfl
    obtain ⟨s, hs⟩ := Option.isSome_iff_exists.1 (hg.txt n h1 h2)
    simp [node, show o.txt n = some s from hs, enc_plain (hg.plain n h1 s hs)]
  | optNum => simp [node]
  | optNat => simp [node]
  | optTxt =>
    have h1 := plan_optTxt _ he rfl
    simp only [node]
    cases hs : o.txt n with
    | none => rfl
    | some s => simp [enc_plain (hg.plain n h1 s hs)]
  | wide => simp [node]
  | ellipsoid =>
    have h1 : n = name "ellipsoid" := plan_ellipsoid _ he rfl
    subst h1
    simp only [node]
    split
    · rename_i hm
      rcases hg.frame with ⟨h, -⟩ | ⟨-, h⟩
      · rw [h] at hm
        exact absurd hm (by decide +kernel)
      · simpa using h
    · rfl
  | names =>
    simp only [node]
    have : seq (o.antNames.map enc) = some o.antNames := by
      rw [seq_iff]
      exact List.map_congr_left (fun s hs => enc_plain (hg.names s hs))
    rw [this]
    rfl
  | catalog =>
    simp only [node]
    cases hc : o.catalog with
    | none => rfl
    | some c => simp [writeCatalog_eq (hg.catalog c hc).2.1 (hg.catalog c hc).2.2]
  | keywords =>
    simp only [node]
    split
    · rfl
    · simp [writeGroup_eq hg.keywords]

section
variable {o : Obj V} {h : List (Str × Node V)}

theorem get_num (hw : write o = some h) {n : Str} (hn : (n, Kind.num) ∈ plan ∨ (n, Kind.optNum) ∈ plan) : getNum h n = o.num n := by
  unfold getNum
  rcases hn with hn | hn <;> have := write_iff hw _ hn <;> dsimp only [node] at this
  · cases ho : o.num n with
    | none => rw [ho] at this; simp at this
    | some v => rw [ho] at this; simp only [Option.map_some, Option.some.injEq] at this; rw [← this]
  · rw [← Option.some.inj this]
    cases o.num n <;> rfl

theorem get_nat (hw : write o = some h) {n : Str} (hn : (n, Kind.nat) ∈ plan ∨ (n, Kind.optNat) ∈ plan) : getNat h n = o.nat n := by
  unfold getNat
  rcases hn with hn | hn <;> have := write_iff hw _ hn <;> dsimp only [node] at this
  · cases ho : o.nat n with
    | none => rw [ho] at this; simp at this
    | some v => rw [ho] at this; simp only [Option.map_some, Option.some.injEq] at this; rw [← this]
  · rw [← Option.some.inj this]
    cases o.nat n <;> rfl

theorem get_wide (hw : write o = some h) : getBool h (name "wide_band") = some o.wide := by
  unfold getBool
  have := write_iff hw (name "wide_band", .wide) (by decide +kernel)
  dsimp only [node] at this
  rw [← Option.some.inj this]

theorem get_node_txt (hw : write o = some h) (hg : Good o) {n : Str}
    (hn : (n, Kind.txt) ∈ plan ∨ (n, Kind.optTxt) ∈ plan) : lookup h n = (o.txt n).map .bytes := by
  rcases hn with hn | hn <;> have := write_iff hw _ hn <;> dsimp only [node] at this
  · cases ho : o.txt n with
    | none => rw [ho] at this; simp at this
    | some s =>
      rw [ho, Option.bind_some, enc_plain (hg.plain n (plan_txt _ hn rfl).1 s ho)] at this
      exact (Option.some.inj this).symm
  · cases ho : o.txt n with
    | none => rw [ho] at this; exact (Option.some.inj this).symm
    | some s =>
      rw [ho] at this
      dsimp only at this
      rw [enc_plain (hg.plain n (plan_optTxt _ hn rfl) s ho)] at this
      exact (Option.some.inj this).symm

theorem get_txt (hw : write o = some h) (hg : Good o) {n : Str}
    (hn : (n, Kind.txt) ∈ plan ∨ (n, Kind.optTxt) ∈ plan) (hs : n ∈ stringAttrs) : getTxt h n = o.txt n := by
  unfold getTxt
  rw [if_pos hs, get_node_txt hw hg hn]
  cases o.txt n <;> rfl

theorem get_lst (hw : write o = some h) (lst : V → V) {t l : Str} (ht : (t, Kind.optNum) ∈ plan) (hl : (l, Kind.optNum) ∈ plan)
    (he : (o.num t).isSome = (o.num l).isSome) : readLst lst h t l = o.num l := by
  unfold readLst
  rw [get_num hw (Or.inr ht), get_num hw (Or.inr hl)]
  cases ht : o.num t <;> cases hl : o.num l <;> rw [ht, hl] at he <;> first | rfl | cases he

end

/-- C209: the header of a calibration file keeps all parameters: numbers, counts, texts, the names of antennas, the catalog of phase centers and
the extra keywords. To the history the version of the program is added if it is not there yet; what is known about the telescope and was not set is set. -/
theorem round_trip (version : Str) (lst : V → V) (known : Str → Known V) (o : Obj V) (hg : Good o) :
    ∃ h o', write o = some h ∧ read version lst known h = some o' ∧
      (∀ n ∈ numNames, n ≠ "antenna_diameters".toList → o'.num n = o.num n) ∧
      (∀ n ∈ natNames, o'.nat n = o.nat n) ∧
      (∀ n ∈ txtNames, n ≠ "history".toList → n ≠ "x_orientation".toList → o'.txt n = o.txt n) ∧
      o'.wide = o.wide ∧ o'.antNames = o.antNames ∧ SameCat o.catalog o'.catalog ∧ o'.keywords.Perm o.keywords ∧
      (∀ s, o.txt "history".toList = some s →
        o'.txt "history".toList = some (if History.hasVersion s version then s else s ++ version)) ∧
      (∀ t, o.txt "telescope_name".toList = some t →
        o'.num "antenna_diameters".toList = (o.num "antenna_diameters".toList).or (known t).diam ∧
        o'.txt "x_orientation".toList = (o.txt "x_orientation".toList).or (known t).orient) := by
  obtain ⟨h, hw⟩ : ∃ h, write o = some h := build_some (nodes hg)
  have hnum := fun n hn => get_num (n := n) hw hn
  have hnat := fun n hn => get_nat (n := n) hw hn
  have htxt := fun n hn hs => get_txt (n := n) hw hg hn hs
  have r1 : reqNums.all (fun n => (getNum h n).isSome) = true := by
    rw [List.all_eq_true]
    have hd : ∀ n ∈ reqNums, (n, Kind.num) ∈ plan ∧ n ∈ numNames ∧ n ∈ required := by decide +kernel
    intro n hn
    rw [hnum n (Or.inl (hd n hn).1)]
    exact hg.num n (hd n hn).2.1 (hd n hn).2.2
  have r2 : reqNats.all (fun n => (getNat h n).isSome) = true := by
    rw [List.all_eq_true]
    have hd : ∀ n ∈ reqNats, (n, Kind.nat) ∈ plan ∧ n ∈ natNames ∧ n ∈ required := by decide +kernel
    intro n hn
    rw [hnat n (Or.inl (hd n hn).1)]
    exact hg.nat n (hd n hn).2.1 (hd n hn).2.2
  have r3 : reqTxts.all (fun n => (getTxt h n).isSome) = true := by
    rw [List.all_eq_true]
    have hd : ∀ n ∈ reqTxts, (n, Kind.txt) ∈ plan ∧ n ∈ txtNames ∧ n ∈ required ∧ n ∈ stringAttrs := by decide +kernel
    intro n hn
    rw [htxt n (Or.inl (hd n hn).1) (hd n hn).2.2.2]
    exact hg.txt n (hd n hn).2.1 (hd n hn).2.2.1
  have r4 : ¬ (getNum h (name "time_array") = none ∧ getNum h (name "time_range") = none) := by
    rw [hnum _ (by decide +kernel), hnum _ (by decide +kernel)]
    rintro ⟨h1, h2⟩
    rcases hg.times with h3 | h3
    · rw [h1] at h3; cases h3
    · rw [h2] at h3; cases h3
  have some_txt : ∀ n, n ∈ txtNames → n ∈ required → ∃ s, o.txt n = some s := fun n a b =>
    Option.isSome_iff_exists.1 (hg.txt n a b)
  obtain ⟨frame, hframe⟩ := some_txt (name "telescope_frame") (by decide +kernel) (by decide +kernel)
  obtain ⟨tel, htel⟩ := some_txt (name "telescope_name") (by decide +kernel) (by decide +kernel)
  obtain ⟨hist, hhist⟩ := some_txt (name "history") (by decide +kernel) (by decide +kernel)
  have gtel : getTxt h (name "telescope_name") = some tel := by
    rw [htxt _ (by decide +kernel) (by decide +kernel), htel]
  have ghist : getTxt h (name "history") = some hist := by
    rw [htxt _ (by decide +kernel) (by decide +kernel), hhist]
  have hfr : frame = name "itrs" ∨ frame = name "mcmf" := by
    rcases hg.frame with ⟨x, -⟩ | ⟨x, -⟩ <;> rw [hframe] at x
    · exact Or.inl (Option.some.inj x)
    · exact Or.inr (Option.some.inj x)
  have gframe : readFrame h = some frame := by
    unfold readFrame
    rw [get_node_txt hw hg (by decide +kernel), hframe]
    simp [decode, hfr]
  have gell : readEllipsoid h frame = some (o.txt (name "ellipsoid")) := by
    unfold readEllipsoid
    have he := write_iff hw (name "ellipsoid", .ellipsoid) (by decide +kernel)
    dsimp only [node] at he
    rcases hg.frame with ⟨x, y⟩ | ⟨x, y⟩
    · have : frame = name "itrs" := by rw [hframe] at x; exact Option.some.inj x
      rw [if_neg (by rw [this]; decide +kernel), y]
    · have hf : frame = name "mcmf" := by rw [hframe] at x; exact Option.some.inj x
      rw [if_pos hf]
      rw [if_pos x] at he
      obtain ⟨s, hs⟩ := Option.isSome_iff_exists.1 y
      rw [hs] at he
      rw [← Option.some.inj he, hs]
      rfl
  have gnames : lookup h (name "antenna_names") = some (.texts o.antNames) := by
    have he := write_iff hw (name "antenna_names", .names) (by decide +kernel)
    dsimp only [node] at he
    have : seq (o.antNames.map enc) = some o.antNames := by
      rw [seq_iff]
      exact List.map_congr_left (fun s hs => enc_plain (hg.names s hs))
    rw [this] at he
    exact (Option.some.inj he).symm
  obtain ⟨cat, gcat, scat⟩ : ∃ c', readCat h = some c' ∧ SameCat o.catalog c' := by
    have he := write_iff hw (name "phase_center_catalog", .catalog) (by decide +kernel)
    dsimp only [node] at he
    cases hc : o.catalog with
    | none =>
      rw [hc] at he
      refine ⟨none, ?_, trivial⟩
      unfold readCat
      rw [← Option.some.inj he]
    | some c =>
      rw [hc] at he
      dsimp only at he
      obtain ⟨h1, h2, h3⟩ := hg.catalog c hc
      rw [writeCatalog_eq h2 h3] at he
      have hl := (Option.some.inj he).symm
      obtain ⟨c', h4, h5⟩ := readCatalog_eq h1 h3 hl
      refine ⟨some c', ?_, h5⟩
      unfold readCat
      rw [hl, h4]
      rfl
  obtain ⟨kws, gkws, skws⟩ : ∃ m, readKeywords h = some m ∧ m.Perm o.keywords := by
    apply readKeywords_eq hg.keywords
    have he := write_iff hw (name "extra_keywords", .keywords) (by decide +kernel)
    dsimp only [node] at he
    split at he
    · rename_i hc
      rw [if_pos hc]
      exact (Option.some.inj he).symm
    · rename_i hc
      rw [if_neg hc]
      rw [writeGroup_eq hg.keywords] at he
      exact (Option.some.inj he).symm
  have hread : read version lst known h = some (assemble version lst (known tel) h frame hist (o.txt (name "ellipsoid")) o.wide o.antNames cat kws) := by
    unfold read
    rw [r1, r2, r3, gframe, gtel, ghist, get_wide hw]
    simp only [Bool.not_true, Bool.false_eq_true, if_false]
    rw [if_neg r4]
    rw [gell, gnames, gcat, gkws]
  refine ⟨h, _, hw, hread, ?_, ?_, ?_, rfl, rfl, scat, skws, ?_, ?_⟩
  · have hd : ∀ n ∈ numNames, (n = name "time_array" ∨ n = name "time_range") ∨ n = name "lst_array" ∨ n = name "lst_range" ∨
        n = name "flex_spw_id_array" ∨ n = name "antenna_diameters" ∨
        (¬ (n = name "time_array" ∨ n = name "time_range") ∧ n ≠ name "lst_array" ∧ n ≠ name "lst_range" ∧ n ≠ name "flex_spw_id_array" ∧
          n ≠ name "antenna_diameters" ∧ (n ∈ reqNums ∨ n ∈ optNums) ∧ ((n, Kind.num) ∈ plan ∨ (n, Kind.optNum) ∈ plan)) := by decide +kernel
    intro n hn hne
    rcases hd n hn with h1 | rfl | rfl | rfl | rfl | ⟨h1, h2, h3, h4, h5, h6, h7⟩
    · dsimp only [assemble]
      rw [if_pos h1]
      rcases h1 with rfl | rfl
      · exact hnum _ (by decide +kernel)
      · exact hnum _ (by decide +kernel)
    · dsimp only [assemble]
      rw [if_neg (by decide +kernel), if_pos rfl]
      exact get_lst hw lst (by decide +kernel) (by decide +kernel) hg.lst
    · dsimp only [assemble]
      rw [if_neg (by decide +kernel), if_neg (by decide +kernel), if_pos rfl]
      exact get_lst hw lst (by decide +kernel) (by decide +kernel) hg.lstRange
    · dsimp only [assemble]
      rw [if_neg (by decide +kernel), if_neg (by decide +kernel), if_neg (by decide +kernel), if_pos rfl]
      split
      · rename_i hwide
        exact (hg.wide hwide).symm
      · exact hnum _ (by decide +kernel)
    · exact absurd rfl hne
    · dsimp only [assemble]
      rw [if_neg h1, if_neg h2, if_neg h3, if_neg h4, if_neg h5, if_pos h6, hnum _ h7]
  · have hd : ∀ n ∈ natNames, (n ∈ reqNats ∨ n ∈ optNats) ∧ ((n, Kind.nat) ∈ plan ∨ (n, Kind.optNat) ∈ plan) := by
      decide +kernel
    intro n hn
    dsimp only [assemble]
    rw [if_pos (hd n hn).1, hnat _ (hd n hn).2]
  · have hd : ∀ n ∈ txtNames, n = name "telescope_frame" ∨ n = name "ellipsoid" ∨ n = name "history" ∨ n = name "x_orientation" ∨
        (n ≠ name "telescope_frame" ∧ n ≠ name "ellipsoid" ∧ n ≠ name "history" ∧ n ≠ name "x_orientation" ∧ (n ∈ reqTxts ∨ n ∈ optTxts) ∧
          ((n, Kind.txt) ∈ plan ∨ (n, Kind.optTxt) ∈ plan) ∧ n ∈ stringAttrs) := by decide +kernel
    intro n hn hne hnx
    rcases hd n hn with rfl | rfl | rfl | rfl | ⟨h1, h2, h3, h4, h5, h6, h7⟩
    · exact hframe.symm
    · dsimp only [assemble]
      rw [if_neg (by decide +kernel), if_pos rfl]
    · exact absurd rfl hne
    · exact absurd rfl hnx
    · dsimp only [assemble]
      rw [if_neg h1, if_neg h2, if_neg h3, if_neg h4, if_pos h5, htxt _ h6 h7]
  · intro s hs
    have : hist = s := Option.some.inj (hhist.symm.trans hs)
    subst this
    dsimp only [assemble]
    rw [if_neg (by decide +kernel), if_neg (by decide +kernel), if_pos (by decide +kernel)]
  · intro t ht
    have : tel = t := Option.some.inj (htel.symm.trans ht)
    subst this
    constructor
    · dsimp only [assemble]
      rw [if_neg (by decide +kernel), if_neg (by decide +kernel), if_neg (by decide +kernel), if_neg (by decide +kernel), if_pos (by decide +kernel)]
      congr 1
      exact hnum _ (by decide +kernel)
    · dsimp only [assemble]
      rw [if_neg (by decide +kernel), if_neg (by decide +kernel), if_neg (by decide +kernel), if_pos (by decide +kernel)]
      congr 1
      exact htxt _ (by decide +kernel) (by decide +kernel)

/-- A catalog without entries is written, but the file cannot be read. -/
theorem empty_catalog_counterexample (version : Str) (lst : V → V) (known : Str → Known V) (o : Obj V) (h : List (Str × Node V))
    (hw : write o = some h) (hc : o.catalog = some []) : read version lst known h = none := by
  have he := write_iff hw (name "phase_center_catalog", .catalog) (by decide +kernel)
  dsimp only [node] at he
  rw [hc] at he
  have hl : lookup h (name "phase_center_catalog") = some (.group []) := (Option.some.inj he).symm
  have hr : readCat h = none := by
    unfold readCat readCatalog
    rw [hl]
    rfl
  unfold read
  rw [hr]
  split
  · rfl
  · split
    · rfl
    · split
      · rfl
      · split
        · rfl
        · split
          · split
            · rename_i hx _; cases hx
            · rfl
          · rfl

/-- Windows of channels are not read again if the object is wide-band. -/
theorem wide_windows_counterexample (version : Str) (lst : V → V) (known : Str → Known V) (o o' : Obj V) (h : List (Str × Node V))
    (hw : write o = some h) (hwide : o.wide = true) (hr : read version lst known h = some o') : o'.num (name "flex_spw_id_array") = none := by
  unfold read at hr
  rw [get_wide hw] at hr
  split at hr
  · cases hr
  · split at hr
    · cases hr
    · split at hr
      · cases hr
      · split at hr
        · cases hr
        · split at hr
          · rename_i hb
            obtain rfl := Option.some.inj hb
            split at hr
            · have hr := Option.some.inj hr
              subst hr
              dsimp only [assemble]
              rw [if_neg (by decide +kernel), if_neg (by decide +kernel), if_neg (by decide +kernel), if_pos rfl, if_pos hwide]
            · cases hr
          · cases hr

end Verif.CalHead
