import Verif.Spec.ReportIO
import Verif.Props.Time
import Verif.Props.Timeline
import Verif.Props.Init
import Verif.Lemmas.Loop

/-! # C47, C48: export, load and conversion of reports -/

namespace Gerabaldi.Props
open Gerabaldi Gerabaldi.Spec

variable {V : Type}

theorem mapExcept_map {α β : Type} {f : α → Except Err β} {g : α → β} {xs : List α}
    (h : ∀ x ∈ xs, f x = .ok (g x)) : mapExcept f xs = .ok (xs.map g) := by
  induction xs with
  | nil => rfl
  | cons x rest ih =>
    rw [mapExcept, h x List.mem_cons_self, ih fun y hy => h y (List.mem_cons_of_mem _ hy)]
    rfl

/-! ## Measurements -/

theorem convertMeas_map {units : Option String} {rows : List (MeasRow V)} {g : MeasRow V → TimeVal}
    (hne : rows ≠ []) (h : ∀ r ∈ rows, convertTime r.time units = .ok (g r)) :
    convertMeas units rows = .ok (rows.map fun r => { r with time := g r }) := by
  unfold convertMeas
  rw [if_neg hne]
  exact mapExcept_map fun r hr => by simp only [h r hr]

/-- The number that stands for a timedelta. -/
def numIn (k : ℚ) : TimeVal → TimeVal
  | .td us => .num (us / k)
  | t => t

/-- Reading a number with ten digits gives the timedelta back, unless the unit is a day. -/
theorem read_back {enc : JsonEnc V} (he : TenDigits enc) {u : Option String} {k : ℚ}
    (hu : (u, k) ∈ acceptedUnits) (hk : k ≤ 3600000000) {us : Int} (hr : inTimedeltaRange us) :
    convertTime (.num (enc.num (us / k))) u = .ok (.td us) := by
  obtain ⟨t, h1, h2, h3, h4⟩ := timeUnitMap_of_accepted hu
  refine C01_timedelta_roundtrip_robust hu hr ?_
  have := he.near (us / k)
  calc |enc.num (us / k) - us / k| * k ≤ 1 / 10000000000 * 3600000000 :=
        mul_le_mul this hk h4.le (by norm_num)
    _ < 1 / 2 := by norm_num

/-! ## Summary rows -/

theorem Dict.ext_nodup {α : Type} {d d' : Dict α} (h1 : d.Nodup) (hk : d.keys = d'.keys)
    (h : ∀ k, d.get? k = d'.get? k) : d = d' := by
  induction d generalizing d' with
  | nil =>
    cases d' with
    | nil => rfl
    | cons kv rest => simp [Dict.keys] at hk
  | cons kv rest ih =>
    cases d' with
    | nil => simp [Dict.keys] at hk
    | cons kv' rest' =>
      obtain ⟨k, v⟩ := kv
      obtain ⟨k', v'⟩ := kv'
      simp only [Dict.keys, List.map_cons, List.cons.injEq] at hk
      obtain ⟨rfl, hk⟩ := hk
      obtain ⟨hnk, hnd⟩ := List.nodup_cons.1 h1
      have hv := h k
      simp only [Dict.get?_cons, if_true] at hv
      cases hv
      congr 1
      refine ih hnd hk fun j => ?_
      by_cases hj : k = j
      · subst hj
        rw [(Dict.get?_eq_none_iff rest k).2 hnk, (Dict.get?_eq_none_iff rest' k).2 (fun hm => hnk ?_)]
        show k ∈ rest.map (·.1)
        rw [hk]
        exact hm
      · have := h j
        simpa [Dict.get?_cons, hj] using this

/-- Put a number for the timedelta in one column. -/
def setNum (k : ℚ) (key : String) (row : SumRow V) : SumRow V :=
  match row.get? key with
  | some (.time t) => row.set key (.time (numIn k t))
  | _ => row

theorem setNum_get? (k : ℚ) (key j : String) (row : SumRow V) :
    (setNum k key row).get? j = if key = j then (row.get? j).map (fun c => match c with
      | .time t => .time (numIn k t)
      | c => c) else row.get? j := by
  unfold setNum
  split
  · rename_i t h
    rw [Dict.get?_set]
    split
    · rename_i hj
      subst hj
      rw [h]
      rfl
    · rfl
  · rename_i h
    split
    · rename_i hj
      subst hj
      cases hg : row.get? key with
      | none => rfl
      | some c =>
        cases c with
        | time t => exact absurd hg (h t)
        | _ => rfl
    · rfl

theorem set_keys_mem {α : Type} {d : Dict α} {k : String} (h : k ∈ d.keys) (v : α) :
    (d.set k v).keys = d.keys := by rw [Dict.keys_set, if_pos h]

theorem setNum_keys (k : ℚ) (key : String) (row : SumRow V) : (setNum k key row).keys = row.keys := by
  unfold setNum
  split
  · rename_i t h
    exact set_keys_mem (Dict.mem_keys_of_get? h) _
  · rfl

theorem convertCol_map {units : Option String} {key : String} {rows : List (SumRow V)}
    {g : SumRow V → SumRow V} (hne : rows ≠ []) (h : ∀ r ∈ rows, convertCell units key r = .ok (g r)) :
    convertCol units key rows = .ok (rows.map g) := by
  unfold convertCol
  rw [if_neg hne]
  exact mapExcept_map h

theorem convertCell_num {u : Option String} {k : ℚ} (hu : (u, k) ∈ acceptedUnits) {key : String}
    {row : SumRow V} {us : Int} (h : row.get? key = some (.time (.td us))) :
    convertCell u key row = .ok (setNum k key row) := by
  unfold convertCell setNum
  rw [h]
  simp only [(convertTime_td hu us).1]
  rfl

/-- The row after an export, before it is written. -/
def numRow (k : ℚ) (row : SumRow V) : SumRow V :=
  setNum k "end time" (setNum k "start time" (setNum k "duration" row))

theorem exportSummary_eq {u : Option String} {k : ℚ} (hu : (u, k) ∈ acceptedUnits)
    {rows : List (SumRow V)} (hne : rows ≠ []) (hr : ∀ row ∈ rows, TimedRow row) :
    exportSummary u rows = .ok (rows.map (numRow k)) := by
  have hd : "duration" ∈ timeCols := by simp [timeCols]
  have hs : "start time" ∈ timeCols := by simp [timeCols]
  have he : "end time" ∈ timeCols := by simp [timeCols]
  unfold exportSummary
  rw [convertCol_map (g := setNum k "duration") hne fun r h => by
    obtain ⟨us, h1, _⟩ := (hr r h).times _ hd
    exact convertCell_num hu h1]
  simp only
  rw [convertCol_map (g := setNum k "start time") (by simpa using hne) fun r h => by
    obtain ⟨r, hm, rfl⟩ := List.mem_map.1 h
    obtain ⟨us, h1, _⟩ := (hr r hm).times _ hs
    exact convertCell_num hu (us := us) (by rw [setNum_get?]; simpa using h1)]
  simp only
  rw [convertCol_map (g := setNum k "end time") (by simpa using hne) fun r h => by
    obtain ⟨r', hm', rfl⟩ := List.mem_map.1 h
    obtain ⟨r, hm, rfl⟩ := List.mem_map.1 hm'
    obtain ⟨us, h1, _⟩ := (hr r hm).times _ he
    exact convertCell_num hu (us := us) (by rw [setNum_get?, setNum_get?]; simpa using h1)]
  simp only [List.map_map]
  rfl

theorem numRow_keys (k : ℚ) (row : SumRow V) : (numRow k row).keys = row.keys := by
  unfold numRow
  rw [setNum_keys, setNum_keys, setNum_keys]

theorem numRow_time {k : ℚ} {row : SumRow V} {key : String} (h : key ∈ timeCols) {us : Int}
    (hr : row.get? key = some (.time (.td us))) : (numRow k row).get? key = some (.time (.num (us / k))) := by
  unfold numRow
  simp only [timeCols, List.mem_cons, List.not_mem_nil, or_false] at h
  rcases h with rfl | rfl | rfl <;> simp [setNum_get?, hr, numIn]

theorem numRow_other {k : ℚ} {row : SumRow V} {key : String} (h : key ∉ timeCols) :
    (numRow k row).get? key = row.get? key := by
  unfold numRow
  simp only [timeCols, List.mem_cons, List.not_mem_nil, or_false, not_or] at h
  simp [setNum_get?, Ne.symm h.1, Ne.symm h.2.1, Ne.symm h.2.2]

theorem sumRow_get? (enc : JsonEnc V) (row : SumRow V) (key : String) :
    (enc.sumRow row).get? key = (row.get? key).map enc.cell :=
  Dict.get?_map (fun _ => enc.cell) row key

theorem sumRow_keys (enc : JsonEnc V) (row : SumRow V) : (enc.sumRow row).keys = row.keys := by
  simp [JsonEnc.sumRow, Dict.keys, Function.comp_def]

/-- Put the timedelta of another row in one column. -/
def copyTime (key : String) (row orig : SumRow V) : SumRow V :=
  match orig.get? key with
  | some c => row.set key c
  | none => row

theorem copyTime_get? {key : String} {row orig : SumRow V} {c : Cell V} (h : orig.get? key = some c)
    (j : String) : (copyTime key row orig).get? j = if key = j then some c else row.get? j := by
  unfold copyTime
  rw [h]
  exact Dict.get?_set ..

theorem loadCell {enc : JsonEnc V} (he : TenDigits enc) {u : Option String} {k : ℚ}
    (hu : (u, k) ∈ acceptedUnits) (hk : k ≤ 3600000000) {row orig : SumRow V} {key : String} {us : Int}
    (hr : inTimedeltaRange us) (h1 : orig.get? key = some (.time (.td us)))
    (h2 : row.get? key = some (.time (.num (enc.num (us / k))))) :
    convertCell u key row = .ok (copyTime key row orig) := by
  unfold convertCell copyTime
  rw [h1, h2]
  simp only [read_back he hu hk hr]

theorem written_time {enc : JsonEnc V} {k : ℚ} {row : SumRow V} {key : String} (h : key ∈ timeCols)
    {us : Int} (hr : row.get? key = some (.time (.td us))) :
    (enc.sumRow (numRow k row)).get? key = some (.time (.num (enc.num (us / k)))) := by
  rw [sumRow_get?, numRow_time h hr]
  rfl

/-- The row as it is written, with the timedeltas back. -/
theorem restore_row (enc : JsonEnc V) (k : ℚ) {row : SumRow V} (hr : TimedRow row) :
    copyTime "duration" (copyTime "end time" (copyTime "start time" (enc.sumRow (numRow k row)) row) row) row
      = row.map fun kv => (kv.1, savedCell enc kv.2) := by
  obtain ⟨a, ha, _⟩ := hr.times "duration" (by simp [timeCols])
  obtain ⟨b, hb, _⟩ := hr.times "start time" (by simp [timeCols])
  obtain ⟨c, hc, _⟩ := hr.times "end time" (by simp [timeCols])
  have k1 : ∀ {key : String} {us : Int} (r : SumRow V), r.keys = row.keys →
      row.get? key = some (.time (.td us)) → (copyTime key r row).keys = row.keys := by
    intro key us r hr h
    unfold copyTime
    rw [h]
    simp only
    rw [set_keys_mem, hr]
    rw [hr]
    exact Dict.mem_keys_of_get? h
  have hkeys := k1 _ (k1 _ (k1 _ ((sumRow_keys enc (numRow k row)).trans (numRow_keys k row)) hb) hc) ha
  refine Dict.ext_nodup ?_ ?_ fun j => ?_
  · unfold Dict.Nodup
    rw [hkeys]
    exact hr.nodup
  · rw [hkeys]
    simp [Dict.keys, Function.comp_def]
  · rw [Dict.get?_map (fun _ => savedCell enc) row j, copyTime_get? ha, copyTime_get? hc, copyTime_get? hb]
    split
    · rename_i h; subst h; rw [ha]; rfl
    · split
      · rename_i h; subst h; rw [hc]; rfl
      · split
        · rename_i h; subst h; rw [hb]; rfl
        · rename_i h1 h2 h3
          have hj : j ∉ timeCols := by
            simp only [timeCols, List.mem_cons, List.not_mem_nil, or_false, not_or]
            exact ⟨Ne.symm h1, Ne.symm h3, Ne.symm h2⟩
          rw [sumRow_get?, numRow_other hj]
          cases hg : row.get? j with
          | none => rfl
          | some c =>
            cases c with
            | time t => exact absurd hg (hr.others j hj t)
            | _ => rfl

theorem loadSummary_eq {enc : JsonEnc V} (he : TenDigits enc) {u : Option String} {k : ℚ}
    (hu : (u, k) ∈ acceptedUnits) (hk : k ≤ 3600000000) {rows : List (SumRow V)} (hne : rows ≠ [])
    (hr : ∀ row ∈ rows, TimedRow row) :
    loadSummary u ((rows.map (numRow k)).map enc.sumRow) = .ok (rows.map fun row =>
      row.map fun kv => (kv.1, savedCell enc kv.2)) := by
  have hs : "start time" ∈ timeCols := by simp [timeCols]
  have hd : "duration" ∈ timeCols := by simp [timeCols]
  have he' : "end time" ∈ timeCols := by simp [timeCols]
  have step : ∀ (key : String) (f : SumRow V → SumRow V),
      (∀ row ∈ rows, ∃ us, row.get? key = some (.time (.td us)) ∧ inTimedeltaRange us ∧
        (f row).get? key = some (.time (.num (enc.num (us / k))))) →
      convertCol u key (rows.map f) = .ok (rows.map fun row => copyTime key (f row) row) := by
    intro key f h
    unfold convertCol
    rw [if_neg (by simpa using hne)]
    have : ∀ rs : List (SumRow V), (∀ row ∈ rs, row ∈ rows) →
        mapExcept (convertCell u key) (rs.map f) = .ok (rs.map fun row => copyTime key (f row) row) := by
      intro rs
      induction rs with
      | nil => exact fun _ => rfl
      | cons row rest ih =>
        intro hsub
        obtain ⟨us, h1, h2, h3⟩ := h row (hsub row List.mem_cons_self)
        rw [List.map_cons, mapExcept, loadCell he hu hk h2 h1 h3,
          ih fun r hr => hsub r (List.mem_cons_of_mem _ hr)]
        rfl
    exact this rows fun _ h => h
  unfold loadSummary
  rw [List.map_map, step "start time" _ fun row hrow => by
    obtain ⟨us, h1, h2⟩ := (hr row hrow).times _ hs
    exact ⟨us, h1, h2, written_time hs h1⟩]
  simp only
  rw [step "end time" _ fun row hrow => by
    obtain ⟨us, h1, h2⟩ := (hr row hrow).times _ he'
    obtain ⟨us', h1', _⟩ := (hr row hrow).times _ hs
    refine ⟨us, h1, h2, ?_⟩
    rw [copyTime_get? h1', if_neg (by decide)]
    exact written_time he' h1]
  simp only
  rw [step "duration" _ fun row hrow => by
    obtain ⟨us, h1, h2⟩ := (hr row hrow).times _ hd
    obtain ⟨us', h1', _⟩ := (hr row hrow).times _ hs
    obtain ⟨us'', h1'', _⟩ := (hr row hrow).times _ he'
    refine ⟨us, h1, h2, ?_⟩
    rw [copyTime_get? h1'', if_neg (by decide), copyTime_get? h1', if_neg (by decide)]
    exact written_time hd h1]
  congr 1
  exact List.map_congr_left fun row hrow => restore_row enc k (hr row hrow)

/-! ## Export and load -/

theorem exportUnits_ok {own given : Option String} {k : ℚ}
    (hu : (given, k) ∈ acceptedUnits) (hg : given ≠ none) :
    ∃ units, exportUnits own given = .ok units ∧ (some units, k) ∈ acceptedUnits ∧ units.toLower = units := by
  simp only [acceptedUnits, List.mem_cons, Prod.mk.injEq, List.not_mem_nil, or_false] at hu
  rcases hu with ⟨rfl, rfl⟩ | ⟨rfl, rfl⟩ | ⟨rfl, rfl⟩ | ⟨rfl, rfl⟩ | ⟨rfl, rfl⟩ | ⟨rfl, rfl⟩ |
    ⟨rfl, rfl⟩ | ⟨rfl, rfl⟩ | ⟨rfl, rfl⟩ | ⟨rfl, rfl⟩ | ⟨rfl, rfl⟩
  · exact absurd rfl hg
  all_goals exact ⟨_, rfl, by simp [acceptedUnits, TUnit.name], by decide +kernel⟩

/-- What an export writes, for every accepted unit: every time as the number of units. -/
theorem export_eq {enc : JsonEnc V} {r : ReportData V} (hr : Exportable r) {given : Option String}
    {units : String} (he : exportUnits r.timeUnit given = .ok units) {k : ℚ}
    (hu : (some units, k) ∈ acceptedUnits) :
    r.exportJson enc given = .ok ⟨r.name, r.description, units,
      (r.measurements.map fun row => { row with time := numIn k row.time }).map enc.row,
      (r.summary.map (numRow k)).map enc.sumRow⟩ := by
  unfold ReportData.exportJson
  rw [he]
  simp only
  rw [convertMeas_map (g := fun row => numIn k row.time) hr.meas fun row hrow => by
    obtain ⟨us, h, _⟩ := hr.times row hrow
    rw [h]
    exact (convertTime_td hu us).1]
  simp only
  rw [exportSummary_eq hu hr.sum hr.rows]

theorem load_eq {enc : JsonEnc V} (he : TenDigits enc) {r : ReportData V} (hr : Exportable r)
    {units : String} (hl : units.toLower = units) {k : ℚ} (hu : (some units, k) ∈ acceptedUnits)
    (hk : k ≤ 3600000000) :
    loadReport ⟨r.name, r.description, units,
      (r.measurements.map fun row => { row with time := numIn k row.time }).map enc.row,
      (r.summary.map (numRow k)).map enc.sumRow⟩ = .ok (savedReport enc r units) := by
  unfold loadReport
  simp only [hl]
  have hm : convertMeas (some units)
      ((r.measurements.map fun row => { row with time := numIn k row.time }).map enc.row) =
      .ok (r.measurements.map fun row => { row with measured := enc.val row.measured }) := by
    unfold convertMeas
    rw [if_neg (by simpa using hr.meas)]
    have : ∀ rs : List (MeasRow V), (∀ row ∈ rs, row ∈ r.measurements) →
        mapExcept (fun r => match convertTime r.time (some units) with
          | .ok t => Except.ok { r with time := t }
          | .error e => .error e)
          ((rs.map fun row => { row with time := numIn k row.time }).map enc.row) =
        .ok (rs.map fun row => { row with measured := enc.val row.measured }) := by
      intro rs
      induction rs with
      | nil => exact fun _ => rfl
      | cons row rest ih =>
        intro hsub
        obtain ⟨us, h1, h2⟩ := hr.times row (hsub row List.mem_cons_self)
        rw [List.map_cons, List.map_cons, mapExcept, ih fun r hr => hsub r (List.mem_cons_of_mem _ hr)]
        have : (enc.row { row with time := numIn k row.time }).time = .num (enc.num (us / k)) := by
          rw [h1]; rfl
        rw [this, read_back he hu hk h2]
        simp only [JsonEnc.row, List.map_cons, Except.ok.injEq, List.cons.injEq, and_true]
        rw [← h1]
    exact this _ fun _ h => h
  rw [hm]
  simp only
  rw [loadSummary_eq he hu hk hr.sum hr.rows]
  rfl

/-- **C47** for all units but days: loading an exported report gives back the name, the description and
both tables with all times; only other numbers are rounded by the JSON writer. Days are missing
(`C47_days_violated`). -/
theorem C47_partial {enc : JsonEnc V} (he : TenDigits enc) {r : ReportData V} (hr : Exportable r)
    {given : Option String} {k : ℚ} (hu : (given, k) ∈ acceptedUnits) (hg : given ≠ none)
    (hk : k ≠ 86400000000) :
    ∃ j units, r.exportJson enc given = .ok j ∧ loadReport j = .ok (savedReport enc r units) := by
  have hk' : k ≤ 3600000000 := by
    simp only [acceptedUnits, List.mem_cons, Prod.mk.injEq, List.not_mem_nil, or_false] at hu
    rcases hu with ⟨rfl, rfl⟩ | ⟨rfl, rfl⟩ | ⟨rfl, rfl⟩ | ⟨rfl, rfl⟩ | ⟨rfl, rfl⟩ | ⟨rfl, rfl⟩ |
      ⟨rfl, rfl⟩ | ⟨rfl, rfl⟩ | ⟨rfl, rfl⟩ | ⟨rfl, rfl⟩ | ⟨rfl, rfl⟩ <;> first | exact absurd rfl hk | norm_num
  obtain ⟨units, h1, h2, h3⟩ := exportUnits_ok (own := r.timeUnit) hu hg
  exact ⟨_, units, export_eq hr h1 h2, load_eq he hr h3 h2 hk'⟩

/-- **C47** without a unit: hours, or the report's own unit if that is an accepted name. -/
theorem C47_default_partial {enc : JsonEnc V} (he : TenDigits enc) {r : ReportData V} (hr : Exportable r)
    {k : ℚ} (hu : (r.timeUnit, k) ∈ acceptedUnits) (hk : k ≠ 86400000000) :
    ∃ j units, r.exportJson enc none = .ok j ∧ loadReport j = .ok (savedReport enc r units) := by
  have hown : ∃ units, exportUnits r.timeUnit none = .ok units ∧ (some units, k) ∈ acceptedUnits ∧
      units.toLower = units ∧ k ≤ 3600000000 := by
    generalize r.timeUnit = own at hu
    simp only [acceptedUnits, List.mem_cons, Prod.mk.injEq, List.not_mem_nil, or_false] at hu
    rcases hu with ⟨rfl, rfl⟩ | ⟨rfl, rfl⟩ | ⟨rfl, rfl⟩ | ⟨rfl, rfl⟩ | ⟨rfl, rfl⟩ | ⟨rfl, rfl⟩ |
      ⟨rfl, rfl⟩ | ⟨rfl, rfl⟩ | ⟨rfl, rfl⟩ | ⟨rfl, rfl⟩ | ⟨rfl, rfl⟩
    all_goals first
      | exact absurd rfl hk
      | exact ⟨_, rfl, by simp [acceptedUnits], by decide +kernel, by norm_num⟩
  obtain ⟨units, h1, h2, h3, h4⟩ := hown
  exact ⟨_, units, export_eq hr h1 h2, load_eq he hr h3 h2 h4⟩

/-- **C47** An unknown unit is refused. -/
theorem C47_unknown_unit (enc : JsonEnc V) (r : ReportData V) {given : String}
    (hu : ∀ k, (some given, k) ∉ acceptedUnits) : r.exportJson enc (some given) = .error .userConfig := by
  unfold ReportData.exportJson exportUnits
  simp only [timeUnitMap_none_of_not_accepted hu]

/-- **C47** is violated for 'days': one microsecond never comes back, whatever the rounding to ten
digits. -/
theorem C47_days_violated {enc : JsonEnc V} (he : TenDigits enc) {u : String} (hu : u = "days" ∨ u = "d") :
    convertTime (.td 1) (some u) = .ok (.num (1 / 86400000000)) ∧
    convertTime (enc.time (.num (1 / 86400000000))) (some u) ≠ .ok (.td 1) := by
  have hacc : (some u, (86400000000 : ℚ)) ∈ acceptedUnits := by
    rcases hu with rfl | rfl <;> simp [acceptedUnits]
  refine ⟨by simpa using (convertTime_td hacc 1).1, ?_⟩
  show convertTime (.num (enc.num (1 / 86400000000))) (some u) ≠ _
  rw [convertTime_num hacc]
  obtain ⟨n, hn⟩ := he.digits (1 / 86400000000)
  rw [hn]
  intro h
  have hone : roundHalfEven ((n : ℚ) / 10000000000 * 86400000000) = 1 := by
    split at h
    · simpa using h
    · cases h
  have hb := roundHalfEven_bound ((n : ℚ) / 10000000000 * 86400000000)
  rw [hone, abs_le] at hb
  obtain ⟨h1, h2⟩ := hb
  have e : (n : ℚ) / 10000000000 * 86400000000 = n * (864 / 100) := by ring
  rw [e] at h1 h2
  norm_num at h1 h2
  have h3 : (n : ℚ) < 1 := by linarith
  have h4 : (0 : ℚ) < n := by linarith
  have h5 : n < 1 := by exact_mod_cast h3
  have h6 : 0 < n := by exact_mod_cast h4
  omega

/-- **C47** is violated for reports without measurements: the export raises `KeyError`. -/
theorem C47_empty_violated (enc : JsonEnc V) {r : ReportData V} (hr : r.measurements = [])
    {given : Option String} {k : ℚ} (hu : (given, k) ∈ acceptedUnits) (hg : given ≠ none) :
    r.exportJson enc given = .error .keyError := by
  obtain ⟨units, h1, _⟩ := exportUnits_ok (own := r.timeUnit) hu hg
  unfold ReportData.exportJson
  rw [h1]
  simp [convertMeas, hr]

theorem saved_exportable {enc : JsonEnc V} {r : ReportData V} (hr : Exportable r) (units : String) :
    Exportable (savedReport enc r units) := by
  refine ⟨by simpa [savedReport] using hr.meas, by simpa [savedReport] using hr.sum, ?_, ?_⟩
  · intro row hrow
    obtain ⟨row', hm, rfl⟩ := List.mem_map.1 hrow
    exact hr.times row' hm
  · intro row hrow
    obtain ⟨row', hm, rfl⟩ := List.mem_map.1 hrow
    have hr' := hr.rows row' hm
    have hget : ∀ key, Dict.get? (row'.map fun kv => (kv.1, savedCell enc kv.2)) key = (row'.get? key).map (savedCell enc) := fun key => Dict.get?_map (fun _ => savedCell enc) row' key
    refine ⟨?_, ?_, ?_⟩
    · have := hr'.nodup
      unfold Dict.Nodup Dict.keys at this ⊢
      simpa [Function.comp_def] using this
    · intro key hkey
      obtain ⟨us, h1, h2⟩ := hr'.times key hkey
      exact ⟨us, by rw [hget, h1]; rfl, h2⟩
    · intro key hkey t ht
      rw [hget] at ht
      cases hg : row'.get? key with
      | none => rw [hg] at ht; cases ht
      | some c =>
        rw [hg] at ht
        cases c with
        | time t' => exact hr'.others key hkey t' hg
        | val v => cases ht
        | str s => cases ht
        | nat n => cases ht

/-- **C47** Loading and exporting again in the same unit writes the same document (if rounding a rounded
value changes nothing). -/
theorem C47_again {enc : JsonEnc V} (hv : ∀ v, enc.val (enc.val v) = enc.val v) {r : ReportData V}
    (hr : Exportable r) {given : Option String} {k : ℚ} (hu : (given, k) ∈ acceptedUnits)
    (hg : given ≠ none) {j : ReportJson V} {units : String} (hj : r.exportJson enc given = .ok j) :
    (savedReport enc r units).exportJson enc given = .ok j := by
  obtain ⟨un, h1, h2, _⟩ := exportUnits_ok (own := r.timeUnit) hu hg
  obtain ⟨un', h1', h2', _⟩ := exportUnits_ok (own := some units) hu hg
  have hun : un' = un := by
    cases given with
    | none => exact absurd rfl hg
    | some g =>
      have : exportUnits (some units) (some g) = exportUnits r.timeUnit (some g) := rfl
      rw [this, h1] at h1'
      exact (Except.ok.inj h1').symm
  subst hun
  rw [export_eq hr h1 h2] at hj
  cases hj
  rw [export_eq (saved_exportable hr units) h1' h2]
  congr 2
  · simp only [savedReport, List.map_map]
    exact List.map_congr_left fun row _ => by simp [JsonEnc.row, hv]
  · simp only [savedReport, List.map_map]
    refine List.map_congr_left fun row hrow => ?_
    have hr' := hr.rows row hrow
    have hs : TimedRow (row.map fun kv => (kv.1, savedCell enc kv.2)) := (saved_exportable (enc := enc) hr units).rows _ (List.mem_map_of_mem hrow)
    have hget : ∀ key, Dict.get? (row.map fun kv => (kv.1, savedCell enc kv.2)) key = (row.get? key).map (savedCell enc) := fun key => Dict.get?_map (fun _ => savedCell enc) row key
    refine Dict.ext_nodup ?_ ?_ fun key => ?_
    · show (Dict.keys _).Nodup
      rw [Function.comp_apply, Function.comp_apply, sumRow_keys, numRow_keys]
      exact hs.nodup
    · rw [Function.comp_apply, Function.comp_apply, sumRow_keys, numRow_keys, Function.comp_apply, sumRow_keys,
        numRow_keys]
      simp [Dict.keys, Function.comp_def]
    · rw [Function.comp_apply, Function.comp_apply, Function.comp_apply, sumRow_get?, sumRow_get?]
      by_cases hk : key ∈ timeCols
      · obtain ⟨us, g1, _⟩ := hr'.times key hk
        rw [numRow_time hk g1, numRow_time hk (us := us) (by rw [hget, g1]; rfl)]
      · rw [numRow_other hk, numRow_other hk, hget]
        cases row.get? key with
        | none => rfl
        | some c => cases c <;> simp [JsonEnc.cell, savedCell, hv]

/-! ## Reports of simulations -/

section
variable {W : Type} [PyNum V] [Rng W V]

theorem td_add {a b : Int} {t : TimeVal} (h : (TimeVal.td a).add (.td b) = .ok t) :
    ∃ c, t = .td c ∧ inTimedeltaRange c := by
  simp only [TimeVal.add, tdAdd, tdMk] at h
  by_cases hv : tdValid (a + b)
  · rw [if_pos hv] at h
    cases h
    exact ⟨_, rfl, (tdValid_iff _).1 hv⟩
  · rw [if_neg hv] at h
    cases h

theorem td_sub {a b : Int} {t : TimeVal} (h : (TimeVal.td a).sub (.td b) = .ok t) :
    ∃ c, t = .td c ∧ inTimedeltaRange c := by
  simp only [TimeVal.sub, tdMk] at h
  by_cases hv : tdValid (a - b)
  · rw [if_pos hv] at h
    cases h
    exact ⟨_, rfl, (tdValid_iff _).1 hv⟩
  · rw [if_neg hv] at h
    cases h

omit [PyNum V] in
theorem summaryRow_timed {name type : String} {i : Nat} {d a b : Int} {conds : Dict V}
    (hn : conds.Nodup) (hr : ∀ k ∈ reserved, k ∉ conds.keys) (hd : inTimedeltaRange d)
    (ha : inTimedeltaRange a) (hb : inTimedeltaRange b) :
    TimedRow (summaryRow name type i (.td d) (.td a) (.td b) conds) := by
  have hk : ∀ k ∈ reserved, conds.get? k = none := fun k hk => (Dict.get?_eq_none_iff _ _).2 (hr k hk)
  refine ⟨?_, ?_, ?_⟩
  · unfold summaryRow Dict.update
    have base : Dict.Nodup [("step name", (.str name : Cell V)), ("step type", .str type),
        ("step number", .nat i), ("duration", .time (.td d)), ("start time", .time (.td a)),
        ("end time", .time (.td b))] := by
      show List.Nodup ["step name", "step type", "step number", "duration", "start time", "end time"]
      decide
    generalize [("step name", (.str name : Cell V)), ("step type", .str type),
        ("step number", .nat i), ("duration", .time (.td d)), ("start time", .time (.td a)),
        ("end time", .time (.td b))] = d0 at base
    generalize (conds.map fun kv => (kv.1, (Cell.val kv.2 : Cell V))) = cs
    induction cs generalizing d0 with
    | nil => exact base
    | cons kv rest ih => exact ih _ (Dict.Nodup.set base _ _)
  · intro key hkey
    simp only [timeCols, List.mem_cons, List.not_mem_nil, or_false] at hkey
    rcases hkey with rfl | rfl | rfl
    · exact ⟨d, by rw [summaryRow_get? hn, hk _ (by simp [reserved])]; rfl, hd⟩
    · exact ⟨a, by rw [summaryRow_get? hn, hk _ (by simp [reserved])]; rfl, ha⟩
    · exact ⟨b, by rw [summaryRow_get? hn, hk _ (by simp [reserved])]; rfl, hb⟩
  · intro key hkey t h
    rw [summaryRow_get? hn] at h
    cases hc : conds.get? key with
    | some v => rw [hc] at h; cases h
    | none =>
      rw [hc] at h
      simp only [timeCols, List.mem_cons, List.not_mem_nil, or_false, not_or] at hkey
      simp only [Option.map_none, Option.none_or, Dict.get?_cons] at h
      rw [if_neg (c := "duration" = key) (Ne.symm hkey.1), if_neg (c := "start time" = key)
        (Ne.symm hkey.2.1), if_neg (c := "end time" = key) (Ne.symm hkey.2.2)] at h
      split_ifs at h <;> cases h

/-- The durations of the stress steps are timedeltas. -/
def TdSteps (steps : List (Step V)) : Prop :=
  ∀ st, Step.strs st ∈ steps → ∃ us, st.duration = .td us ∧ inTimedeltaRange us

theorem runDelta_exportable {ord : SetOrder} {dev : DeviceMdl W V} {env : PhysTestEnv V} {q : Quantities}
    {i : Nat} {steps : List (Step V)} {s s' : SimState V} {rows : List (MeasRow V)}
    {lines : List (SumRow V)} {w w' : W}
    (h : runDelta ord dev env q i steps s w = (.ok (s', rows, lines), w'))
    (hn : ∀ st ∈ steps, (stepConditions st).Nodup)
    (hr : ∀ st ∈ steps, ∀ k ∈ reserved, k ∉ (stepConditions st).keys) (htd : TdSteps steps)
    (hs : ∃ us, s.elapsed = .td us ∧ inTimedeltaRange us) :
    (∀ row ∈ rows, ∃ us, row.time = .td us ∧ inTimedeltaRange us) ∧ ∀ row ∈ lines, TimedRow row := by
  induction steps generalizing i s rows lines w with
  | nil =>
    cases h
    exact ⟨fun _ h => absurd h List.not_mem_nil, fun _ h => absurd h List.not_mem_nil⟩
  | cons st rest ih =>
    obtain ⟨s1, rows1, lines1, rows2, lines2, w1, h1, h2, rfl, rfl⟩ := runDelta_cons_ok.1 h
    have ih := fun hs => ih h2 (fun st hst => hn st (List.mem_cons_of_mem _ hst))
      (fun st hst => hr st (List.mem_cons_of_mem _ hst))
      (fun st hst => htd st (List.mem_cons_of_mem _ hst)) hs
    have hn := hn st List.mem_cons_self
    have hr := hr st List.mem_cons_self
    obtain ⟨us, hus, hus'⟩ := hs
    cases st with
    | strs st =>
      obtain ⟨conds, s3, e, b, w3, -, hf, ha, hb, rfl, rfl, rfl⟩ := strsDelta_ok h1
      obtain ⟨d, hd, hd'⟩ := htd st List.mem_cons_self
      rw [(stress_frame hf).1, hus, hd] at ha
      obtain ⟨e, rfl, he⟩ := td_add ha
      rw [hd] at hb
      obtain ⟨b, rfl, hb'⟩ := td_sub hb
      obtain ⟨k1, k2⟩ := ih ⟨e, rfl, he⟩
      refine ⟨by simpa using k1, ?_⟩
      intro row hrow
      rcases List.mem_cons.1 hrow with rfl | hrow
      · rw [hd]
        exact summaryRow_timed hn hr hd' hb' he
      · exact k2 row hrow
    | meas m =>
      have ht := measDelta_step h1
      obtain ⟨conds, w3, -, -, rfl, rfl⟩ := measDelta_ok h1
      obtain ⟨k1, k2⟩ := ih ⟨us, hus, hus'⟩
      refine ⟨?_, ?_⟩
      · intro row hrow
        rcases List.mem_append.1 hrow with hrow | hrow
        · exact ⟨us, (ht row hrow).2.2.trans hus, hus'⟩
        · exact k1 row hrow
      · intro row hrow
        rcases List.mem_cons.1 hrow with rfl | hrow
        · rw [hus]
          exact summaryRow_timed hn hr (by unfold inTimedeltaRange; norm_num) hus' hus'
        · exact k2 row hrow
    | other t =>
      cases h1
      exact ih ⟨us, hus, hus'⟩

/-- The report of every simulation with at least one measurement row can be exported: the theorems below and
above apply to it. The conditions are those of C37: no condition is called like a summary column. -/
theorem simulate_exportable {ord : SetOrder} {test : TestSpec V} {dev : DeviceMdl W V}
    {env : PhysTestEnv V} {r : SimReport V} {w w' : W}
    (h : simulate ord test dev env none w = (.ok r, w'))
    (hn : ∀ st ∈ test.steps, (stepConditions st).Nodup)
    (hr : ∀ st ∈ test.steps, ∀ k ∈ reserved, k ∉ (stepConditions st).keys) (htd : TdSteps test.steps)
    (hm : r.measurements ≠ []) : Exportable r.data := by
  have hr0 := h
  unfold simulate at h
  obtain ⟨⟨s1, r1⟩, hf, rfl⟩ := M.bind_pure_ok.1 h
  clear h
  unfold simulateFull at hf
  obtain ⟨⟨s0, r0⟩, w0, h0, hf⟩ := M.bind_eq_ok.1 hf
  obtain ⟨rows, lines, h, hres⟩ := runSteps_ok.1 hf
  obtain ⟨-, e2, e3⟩ := simStart_elapsed h0
  have hel : s0.elapsed = .td 0 := by
    unfold simStart at h0
    obtain ⟨r0, w1, h1, h0⟩ := M.bind_eq_ok.1 h0
    obtain ⟨q, h2, h0⟩ := M.ofExcept_bind_ok.1 h0
    obtain ⟨hp, rfl⟩ := M.pure_eq_ok.1 h0
    cases hp
    unfold genInitState at h1
    simp only [Option.filter_none] at h1
    obtain ⟨s1, h3, rfl⟩ := M.bind_pure_ok.1 h1
    unfold genInitFrom at h3
    obtain ⟨s2, h4, rfl⟩ := M.bind_pure_ok.1 h3
    simp [withElapsed]
  obtain ⟨k1, k2⟩ := runDelta_exportable h hn hr htd ⟨0, hel, by unfold inTimedeltaRange; norm_num⟩
  have hms : r1.measurements = rows := by
    rw [hres]
    show r0.measurements ++ rows = rows
    rw [e3]
    rfl
  have hls : r1.summary = lines := by
    rw [hres]
    show r0.summary ++ lines = lines
    rw [e2]
    rfl
  refine ⟨hm, ?_, fun row hrow => k1 row (hms ▸ hrow), fun row hrow => k2 row (hls ▸ hrow)⟩
  intro hnil
  have hnil : r1.summary = [] := hnil
  have hc := C50_conditions hr0 hn
  rw [hnil, List.forall₂_nil_left_iff] at hc
  obtain ⟨row, hrow⟩ := List.exists_mem_of_ne_nil _ hm
  rw [hms] at hrow
  clear hr0 hf h0 hres e2 e3 hel k1 k2 hms hls hnil hm hn hr htd
  generalize r0.info = q at h
  revert hc h
  generalize test.steps = steps
  intro hc h
  have : ∀ (steps : List (Step V)) i s s' rows lines w w',
      steps.filter (fun st => (stepName st).isSome) = [] →
      runDelta ord dev env q i steps s w = (.ok (s', rows, lines), w') → rows = [] := by
    intro steps
    induction steps with
    | nil => intro i s s' rows lines w w' _ h; cases h; rfl
    | cons st rest ih =>
      intro i s s' rows lines w w' hf h
      obtain ⟨s1, rows1, lines1, rows2, lines2, w1, h1, h2, rfl, rfl⟩ := runDelta_cons_ok.1 h
      cases st with
      | strs st => simp [stepName] at hf
      | meas m => simp [stepName] at hf
      | other t =>
        cases h1
        simpa using ih _ _ _ _ _ _ _ (by simpa [stepName] using hf) h2
  rw [this _ _ _ _ _ _ _ _ hc h] at hrow
  exact absurd hrow List.not_mem_nil

/-- **C47** for simulated reports: export in any unit but days and load again, and all times are back. -/
theorem C47_simulated_partial {enc : JsonEnc V} (he : TenDigits enc) {ord : SetOrder} {test : TestSpec V}
    {dev : DeviceMdl W V} {env : PhysTestEnv V} {r : SimReport V} {w w' : W}
    (h : simulate ord test dev env none w = (.ok r, w'))
    (hn : ∀ st ∈ test.steps, (stepConditions st).Nodup)
    (hr : ∀ st ∈ test.steps, ∀ k ∈ reserved, k ∉ (stepConditions st).keys) (htd : TdSteps test.steps)
    (hm : r.measurements ≠ []) {given : Option String} {k : ℚ} (hu : (given, k) ∈ acceptedUnits)
    (hg : given ≠ none) (hk : k ≠ 86400000000) :
    ∃ j r' units, r.data.exportJson enc given = .ok j ∧ loadReport j = .ok r' ∧
      r' = savedReport enc r.data units := by
  obtain ⟨j, units, h1, h2⟩ := C47_partial he (simulate_exportable h hn hr htd hm) hu hg hk
  exact ⟨j, _, units, h1, h2, rfl⟩

end

/-! ## C48 -/

theorem convert_eq {r : ReportData V} (hm : r.measurements ≠ [])
    (ht : ∀ row ∈ r.measurements, ∃ us, row.time = .td us) {u : String} {k : ℚ}
    (hu : (some u, k) ∈ acceptedUnits) :
    r.convertReportTime (some u) = (.ok (), { r with
      measurements := r.measurements.map fun row => { row with time := numIn k row.time }
      timeUnit := some u }) := by
  unfold ReportData.convertReportTime
  simp only [Option.getD_some]
  rw [convertMeas_map (g := fun row => numIn k row.time) hm fun row hrow => by
    obtain ⟨us, h⟩ := ht row hrow
    rw [h]
    exact (convertTime_td hu us).1]

/-- **C48**, the part that holds: the numbers of a converted report, written to JSON, are those an export of
the unconverted report writes. -/
theorem C48_numbers_partial {enc : JsonEnc V} {r : ReportData V} (hr : Exportable r) {u : String} {k : ℚ}
    (hu : (some u, k) ∈ acceptedUnits) {j : ReportJson V} (hj : r.exportJson enc (some u) = .ok j) :
    (r.convertReportTime (some u)).1 = .ok () ∧
      (r.convertReportTime (some u)).2.measurements.map enc.row = j.measurements := by
  rw [convert_eq hr.meas (fun row h => (hr.times row h).imp fun _ h => h.1) hu]
  obtain ⟨units, h1, h2, _⟩ := exportUnits_ok (own := r.timeUnit) hu (by simp)
  rw [export_eq hr h1 h2] at hj
  cases hj
  exact ⟨rfl, rfl⟩

/-- **C48**, the part that holds: a conversion does not change what is exported of the test summary, the name
and the description. -/
theorem C48_summary_partial {enc : JsonEnc V} {r : ReportData V} (u : Option String) {g : String}
    {j j' : ReportJson V} (hj : r.exportJson enc (some g) = .ok j)
    (hj' : (r.convertReportTime u).2.exportJson enc (some g) = .ok j') :
    j'.summary = j.summary ∧ j'.testName = j.testName ∧ j'.description = j.description ∧
      j'.timeUnits = j.timeUnits := by
  have hc : ∃ ms t, (r.convertReportTime u).2 = { r with measurements := ms, timeUnit := t } := by
    unfold ReportData.convertReportTime
    simp only
    split
    · exact ⟨_, _, rfl⟩
    · exact ⟨_, _, rfl⟩
  obtain ⟨ms, t, hc⟩ := hc
  rw [hc] at hj'
  unfold ReportData.exportJson at hj hj'
  have hun : exportUnits t (some g) = exportUnits r.timeUnit (some g) := rfl
  simp only [hun] at hj'
  cases hu : exportUnits r.timeUnit (some g) with
  | error e => rw [hu] at hj; cases hj
  | ok units =>
    simp only [hu] at hj hj'
    cases h1 : convertMeas (some units) r.measurements with
    | error e => simp only [h1] at hj; cases hj
    | ok m1 =>
      cases h2 : convertMeas (some units) ms with
      | error e => simp only [h2] at hj'; cases hj'
      | ok m2 =>
        cases h3 : exportSummary (some units) r.summary with
        | error e => simp only [h1, h3] at hj; cases hj
        | ok ss =>
          simp only [h1, h3] at hj
          simp only [h2, h3] at hj'
          cases hj
          cases hj'
          exact ⟨rfl, rfl, rfl, rfl⟩

/-- Converting to a unit and exporting in it writes whole milliseconds instead of the unit. -/
theorem export_converted {enc : JsonEnc V} {r : ReportData V} (hr : Exportable r) {u : String} {k : ℚ}
    (hu : (some u, k) ∈ acceptedUnits) :
    ∃ j, (r.convertReportTime (some u)).2.exportJson enc (some u) = .ok j ∧
      j.measurements = r.measurements.map fun row => enc.row row := by
  rw [convert_eq hr.meas (fun row h => (hr.times row h).imp fun _ h => h.1) hu]
  obtain ⟨units, h1, h2, _⟩ := exportUnits_ok (own := some u) hu (by simp)
  unfold ReportData.exportJson
  simp only [h1]
  have hm : convertMeas (some units) (r.measurements.map fun row => { row with time := numIn k row.time }) =
      .ok r.measurements := by
    unfold convertMeas
    rw [if_neg (by simpa using hr.meas)]
    have : ∀ rs : List (MeasRow V), (∀ row ∈ rs, row ∈ r.measurements) →
        mapExcept (fun r => match convertTime r.time (some units) with
          | .ok t => Except.ok { r with time := t }
          | .error e => .error e)
          (rs.map fun row => { row with time := numIn k row.time }) = .ok rs := by
      intro rs
      induction rs with
      | nil => exact fun _ => rfl
      | cons row rest ih =>
        intro hsub
        obtain ⟨us, g1, g2⟩ := hr.times row (hsub row List.mem_cons_self)
        obtain ⟨t, t1, t2, t3, t4⟩ := timeUnitMap_of_accepted h2
        rw [List.map_cons, mapExcept, ih fun r hr => hsub r (List.mem_cons_of_mem _ hr)]
        have : convertTime (numIn k row.time) (some units) = .ok row.time := by
          rw [g1]
          exact C01_timedelta_roundtrip_robust h2 g2 (by norm_num)
        simp only [this]
    exact this _ fun _ h => h
  simp only [hm]
  rw [exportSummary_eq h2 hr.sum hr.rows]
  exact ⟨_, rfl, rfl⟩

/-- **C48** is violated: exporting after a conversion to seconds, hours or days does not write the same
times as exporting before, as soon as one time is a millisecond or longer. -/
theorem C48_export_violated {enc : JsonEnc V} (he : TenDigits enc) {r : ReportData V} (hr : Exportable r)
    {u : String} {k : ℚ} (hu : (some u, k) ∈ acceptedUnits) (hk : 1000000 ≤ k) {row : MeasRow V}
    (hrow : row ∈ r.measurements) {us : Int} (ht : row.time = .td us) (hus : 1000 ≤ us) :
    ∃ j j', r.exportJson enc (some u) = .ok j ∧
      (r.convertReportTime (some u)).2.exportJson enc (some u) = .ok j' ∧
      j'.measurements.map (·.time) ≠ j.measurements.map (·.time) := by
  obtain ⟨units, h1, h2, _⟩ := exportUnits_ok (own := r.timeUnit) hu (by simp)
  obtain ⟨j', h3, h4⟩ := export_converted (enc := enc) hr hu
  refine ⟨_, j', export_eq hr h1 h2, h3, ?_⟩
  rw [h4]
  simp only [List.map_map]
  intro h
  have h := List.map_inj_left.1 h row hrow
  simp only [Function.comp_apply, JsonEnc.row, ht, numIn, JsonEnc.time, TimeVal.num.injEq] at h
  have hn := (abs_le.1 (he.near (us / k))).2
  rw [← h] at hn
  have hf : 1 ≤ us / 1000 := by omega
  have hlt : us < (us / 1000 + 1) * 1000 := by omega
  have hf' : (1 : ℚ) ≤ ((us / 1000 : Int) : ℚ) := by exact_mod_cast hf
  have hlt' : (us : ℚ) < (((us / 1000 : Int) : ℚ) + 1) * 1000 := by exact_mod_cast hlt
  have hdiv : (us : ℚ) / k ≤ us / 1000000 :=
    div_le_div_of_nonneg_left (by have : (1000 : ℚ) ≤ us := by exact_mod_cast hus
                                  linarith) (by norm_num) hk
  have : (us : ℚ) / 1000000 < (((us / 1000 : Int) : ℚ) + 1) / 1000 := by
    rw [div_lt_div_iff₀ (by norm_num) (by norm_num)]
    linarith
  linarith

/-- **C48** is violated: converting twice to the same unit undoes the conversion. -/
theorem C48_twice_violated {r : ReportData V} (hr : Exportable r) {u : String} {k : ℚ}
    (hu : (some u, k) ∈ acceptedUnits) :
    ((r.convertReportTime (some u)).2.convertReportTime (some u)).2 = { r with timeUnit := some u } ∧
      (r.convertReportTime (some u)).2.measurements ≠ r.measurements := by
  rw [convert_eq hr.meas (fun row h => (hr.times row h).imp fun _ h => h.1) hu]
  constructor
  · unfold ReportData.convertReportTime
    simp only [Option.getD_some]
    have hm : convertMeas (some u) (r.measurements.map fun row => { row with time := numIn k row.time }) =
        .ok r.measurements := by
      unfold convertMeas
      rw [if_neg (by simpa using hr.meas)]
      have : ∀ rs : List (MeasRow V), (∀ row ∈ rs, row ∈ r.measurements) →
          mapExcept (fun r => match convertTime r.time (some u) with
            | .ok t => Except.ok { r with time := t }
            | .error e => .error e)
            (rs.map fun row => { row with time := numIn k row.time }) = .ok rs := by
        intro rs
        induction rs with
        | nil => exact fun _ => rfl
        | cons row rest ih =>
          intro hsub
          obtain ⟨us, g1, g2⟩ := hr.times row (hsub row List.mem_cons_self)
          obtain ⟨t, t1, t2, t3, t4⟩ := timeUnitMap_of_accepted hu
          rw [List.map_cons, mapExcept, ih fun r hr => hsub r (List.mem_cons_of_mem _ hr)]
          have : convertTime (numIn k row.time) (some u) = .ok row.time := by
            rw [g1]
            exact C01_timedelta_roundtrip_robust hu g2 (by norm_num)
          simp only [this]
      exact this _ fun _ h => h
    rw [hm]
  · intro h
    obtain ⟨row, hrow⟩ := List.exists_mem_of_ne_nil _ hr.meas
    have h := List.map_inj_left.1 (h.trans (List.map_id _).symm) row hrow
    obtain ⟨us, g1, _⟩ := hr.times row hrow
    have := congrArg MeasRow.time h
    simp [g1, numIn] at this

/-- **C48** is violated: a conversion to an unknown unit fails, but the report then names that unit and can no
longer be exported without naming a unit. -/
theorem C48_failed_violated {enc : JsonEnc V} {r : ReportData V} (hr : Exportable r)
    (hu0 : r.timeUnit = none) {u : String} (hu : ∀ k, (some u, k) ∉ acceptedUnits) :
    (r.convertReportTime (some u)).1 = .error .userConfig ∧
      (r.convertReportTime (some u)).2 = { r with timeUnit := some u } ∧
      (∃ j, r.exportJson enc none = .ok j) ∧
      (r.convertReportTime (some u)).2.exportJson enc none = .error .userConfig := by
  have hbad : convertMeas (some u) r.measurements = .error .userConfig := by
    unfold convertMeas
    rw [if_neg hr.meas]
    cases hm : r.measurements with
    | nil => exact absurd hm hr.meas
    | cons row rest =>
      rw [mapExcept]
      simp only [convertTime, timeUnitMap_none_of_not_accepted hu]
  have hc : r.convertReportTime (some u) = (.error .userConfig, { r with timeUnit := some u }) := by
    unfold ReportData.convertReportTime
    simp only [Option.getD_some, hbad]
  rw [hc]
  refine ⟨rfl, rfl, ⟨_, export_eq hr (k := 3600000000) (units := "hours") ?_ (by simp [acceptedUnits])⟩, ?_⟩
  · rw [hu0]; rfl
  · unfold ReportData.exportJson exportUnits
    simp only [Option.getD_some, hbad]

/-! ## Examples -/

/-- Rounding to ten digits. -/
def tenDigits : JsonEnc ℚ where
  num q := roundHalfEven (q * 10000000000) / 10000000000
  val q := roundHalfEven (q * 10000000000) / 10000000000

theorem tenDigits_ok : TenDigits tenDigits := by
  refine ⟨fun q => ?_, fun q => ⟨_, rfl⟩, fun n => ?_⟩
  · have h := roundHalfEven_bound (q * 10000000000)
    rw [abs_le] at h ⊢
    simp only [tenDigits]
    constructor <;> linarith [h.1, h.2]
  · have : (n : ℚ) * 10000000000 = ((n * 10000000000 : Int) : ℚ) := by push_cast; ring
    simp only [tenDigits, this, roundHalfEven_intCast]
    push_cast
    ring

theorem tenDigits_idem (v : ℚ) : tenDigits.val (tenDigits.val v) = tenDigits.val v := by
  simp only [tenDigits, div_mul_cancel₀ _ (by norm_num : (10000000000 : ℚ) ≠ 0), roundHalfEven_intCast]

/-- A report of one stress step of 1.5 h and a measurement of two samples. -/
def smallReport : ReportData ℚ where
  name := "small"
  description := "a small test"
  measurements := [⟨"vth", 1, some 0, some 0, some 0, .td 5400000001, 1 / 3⟩,
    ⟨"vth", 1, some 1, some 0, some 0, .td 5400000001, 2 / 3⟩]
  summary := [summaryRow "bake" "stress" 0 (.td 5400000001) (.td 0) (.td 5400000001) [("temp", 125)],
    summaryRow "read" "measure" 1 (.td 0) (.td 5400000001) (.td 5400000001) [("temp", 25)]]
  timeUnit := none

theorem smallReport_ok : Exportable smallReport := by
  have r1 : inTimedeltaRange 5400000001 := by unfold inTimedeltaRange; norm_num
  have r0 : inTimedeltaRange 0 := by unfold inTimedeltaRange; norm_num
  refine ⟨by simp [smallReport], by simp [smallReport], ?_, ?_⟩
  · intro row hrow
    simp only [smallReport, List.mem_cons, List.not_mem_nil, or_false] at hrow
    rcases hrow with rfl | rfl <;> exact ⟨_, rfl, r1⟩
  · intro row hrow
    simp only [smallReport, List.mem_cons, List.not_mem_nil, or_false] at hrow
    rcases hrow with rfl | rfl
    · exact summaryRow_timed (by simp [Dict.Nodup, Dict.keys]) (by simp [reserved, Dict.keys]) r1 r0 r1
    · exact summaryRow_timed (by simp [Dict.Nodup, Dict.keys]) (by simp [reserved, Dict.keys]) r0 r1 r1

example : ∃ j units, smallReport.exportJson tenDigits (some "h") = .ok j ∧
    loadReport j = .ok (savedReport tenDigits smallReport units) :=
  C47_partial tenDigits_ok smallReport_ok (k := 3600000000) (by simp [acceptedUnits]) (by simp) (by norm_num)

example : ∃ j units, smallReport.exportJson tenDigits none = .ok j ∧
    loadReport j = .ok (savedReport tenDigits smallReport units) :=
  C47_default_partial tenDigits_ok smallReport_ok (k := 3600000000) (by simp [acceptedUnits, smallReport])
    (by norm_num)

example (units : String) {j : ReportJson ℚ} (hj : smallReport.exportJson tenDigits (some "ms") = .ok j) :
    (savedReport tenDigits smallReport units).exportJson tenDigits (some "ms") = .ok j :=
  C47_again tenDigits_idem smallReport_ok (k := 1000) (by simp [acceptedUnits]) (by simp) hj

example : smallReport.exportJson tenDigits (some "weeks") = .error .userConfig :=
  C47_unknown_unit _ _ (by simp [acceptedUnits])

example : ∃ j j', smallReport.exportJson tenDigits (some "hours") = .ok j ∧
    (smallReport.convertReportTime (some "hours")).2.exportJson tenDigits (some "hours") = .ok j' ∧
    j'.measurements.map (·.time) ≠ j.measurements.map (·.time) :=
  C48_export_violated tenDigits_ok smallReport_ok (k := 3600000000) (by simp [acceptedUnits]) (by norm_num)
    (row := ⟨"vth", 1, some 0, some 0, some 0, .td 5400000001, 1 / 3⟩) (by simp [smallReport]) rfl (by norm_num)

example : (smallReport.convertReportTime (some "s")).2.measurements ≠ smallReport.measurements :=
  (C48_twice_violated smallReport_ok (k := 1000000) (by simp [acceptedUnits])).2

example : (smallReport.convertReportTime (some "weeks")).2.exportJson tenDigits none = .error .userConfig :=
  (C48_failed_violated smallReport_ok rfl (by simp [acceptedUnits])).2.2.2

/-- A simulated report goes to a file and back. -/
example (u : String) (hu : u ∈ ["hours", "h", "seconds", "s", "milliseconds", "ms", "microseconds", "us"]) :
    ∃ r j r' units, (simulate Ex.orderA twoSteps Ex.dev {} none Counts.start).1 = .ok r ∧
      r.data.exportJson ⟨tenDigits.num, id⟩ (some u) = .ok j ∧ loadReport j = .ok r' ∧
      r' = savedReport ⟨tenDigits.num, id⟩ r.data units := by
  obtain ⟨r, hr, hm⟩ := exists_ok (x := (simulate Ex.orderA twoSteps Ex.dev {} none Counts.start).1)
    (f := fun r => r.measurements.length == 2) (by decide +kernel)
  have hm : r.measurements ≠ [] := by intro h; simp [h] at hm
  have hs : simulate Ex.orderA twoSteps Ex.dev {} none Counts.start = (.ok r, _) := Prod.ext hr rfl
  have hk : ∃ k, (some u, k) ∈ acceptedUnits ∧ k ≠ 86400000000 := by
    simp only [List.mem_cons, List.not_mem_nil, or_false] at hu
    rcases hu with rfl | rfl | rfl | rfl | rfl | rfl | rfl | rfl
    all_goals simp [acceptedUnits]
  obtain ⟨k, hk, hk'⟩ := hk
  have c1 : ∀ st ∈ twoSteps.steps, (stepConditions st).Nodup := by
    intro st hst
    simp only [twoSteps, List.mem_cons, List.not_mem_nil, or_false] at hst
    rcases hst with rfl | rfl | rfl <;> simp [stepConditions, Dict.Nodup, Dict.keys]
  have c2 : ∀ st ∈ twoSteps.steps, ∀ k ∈ reserved, k ∉ (stepConditions st).keys := by
    intro st hst
    simp only [twoSteps, List.mem_cons, List.not_mem_nil, or_false] at hst
    rcases hst with rfl | rfl | rfl <;> simp [stepConditions, Dict.keys, reserved]
  have c3 : TdSteps twoSteps.steps := by
    intro st hst
    simp only [twoSteps, List.mem_cons, List.not_mem_nil, or_false, Step.strs.injEq, reduceCtorEq,
      false_or] at hst
    rcases hst with rfl | rfl <;> exact ⟨_, rfl, by unfold inTimedeltaRange; norm_num⟩
  obtain ⟨j, r', units, h1, h2, h3⟩ := C47_simulated_partial (enc := ⟨tenDigits.num, id⟩)
    ⟨tenDigits_ok.near, tenDigits_ok.digits, tenDigits_ok.fixed⟩ hs c1 c2 c3 hm hk (by simp) hk'
  exact ⟨r, j, r', units, hr, h1, h2, h3⟩

end Gerabaldi.Props
