import Verif.Props.SplitEx

/-!
# C104: a strictly increasing mechanism for which the search for the equivalent time does not finish
-/

namespace Gerabaldi.Props

open Gerabaldi Gerabaldi.Spec

/-- The time at which every search starts, about 92.4 units. -/
noncomputable def startTime : ℝ := (10 : ℝ) ^ (-3 + 215027748241771 / 562949953421312 * 13 : ℝ)

/-- **C104**, the part that holds: whether the search for the equivalent time of a sample stops by itself or is cut off
after 50 rounds, the time it returns is on the same side of the starting time as the time `T` at which the strictly
monotone mechanism had the sample's degradation, and its residue is not larger than that of the starting time. -/
theorem C104_side_partial {W : Type} (func : List (Ext ℝ) → M W (List (Ext ℝ))) (n : Nat) (w w' : W)
    (log : List (Call (Ext ℝ))) (out : List (Ext ℝ))
    (h : minimize (equivTimeCfg (Ext ℝ)) (logged func) n (w, []) = (.ok out, (w', log)))
    (i : Nat) (hi : i < n) (f : ℝ → ℝ) (T : ℝ) (hT : 0 < T)
    (hmono : StrictMonoOn f (Set.Ioi 0) ∨ StrictAntiOn f (Set.Ioi 0))
    (g : Ext ℝ → Ext ℝ) (hres : ∀ t : ℝ, 0 < t → g (.fin t) = .fin |f T - f t|)
    (hg : ∀ k x y, evalAt log i k x y → y = g x) :
    ∃ t : ℝ, out[i]? = some (.fin t) ∧ 0 < t ∧ |f T - f t| ≤ |f T - f startTime| ∧
      (startTime ≤ T → startTime ≤ t) ∧ (T ≤ startTime → t ≤ startTime) := by
  have hpos : ∀ u : ℝ, (0 : ℝ) < 10 ^ u := fun u => Real.rpow_pos_of_pos (by norm_num) u
  obtain ⟨us, s₁, h1, h2, _, h3, -⟩ := minimize_field (FinEmb.ext ℝ) cfgR_emb rfl h hi
    (g := fun u => |f T - f (10 ^ u)|) (fun u => hres _ (hpos u)) hg
  obtain ⟨b1, b2⟩ := @Trace.best ℝ (fieldArith ℝ) cfgR (fun _ => True)
    (fun x y _ _ => by simpa [fa_le] using le_total x y)
    (fun x y z _ _ _ a b => by simp only [fa_le, decide_eq_true_eq] at *; exact a.trans b) _ _ _ h3 trivial
    (fun _ _ => trivial)
  have hx0 : (10 : ℝ) ^ (@MinCfg.x0 ℝ (fieldArith ℝ) cfgR) = startTime := by
    unfold startTime
    congr 1
    simp only [MinCfg.x0, fa_add, fa_mul, fa_sub, cfgR]
    norm_num
  have hfx : s₁.fx = |f T - f (10 ^ s₁.x)| := by
    rcases List.mem_cons.1 b1 with e | e
    · rw [Prod.mk.injEq] at e
      have e1 : s₁.x = @MinCfg.x0 ℝ (fieldArith ℝ) cfgR := e.1
      rw [e.2, e1]
      rfl
    · exact h2 _ e
  have hle := b2 _ List.mem_cons_self
  simp only [fa_le, decide_eq_true_eq] at hle
  have hle : |f T - f (10 ^ s₁.x)| ≤ |f T - f startTime| := by
    rw [← hfx, ← hx0]
    exact hle
  have hs0 : 0 < startTime := hpos _
  refine ⟨10 ^ s₁.x, h1, hpos _, hle, fun hs => ?_, fun hs => ?_⟩
  · by_contra hc
    push Not at hc
    have hx := hpos s₁.x
    rcases hmono with hm | hm
    · have a1 := hm hx hs0 hc
      have a2 := hm.monotoneOn hs0 hT hs
      rw [abs_of_nonneg (by linarith), abs_of_nonneg (by linarith)] at hle
      linarith
    · have a1 := hm hx hs0 hc
      have a2 := hm.antitoneOn hs0 hT hs
      rw [abs_of_nonpos (by linarith), abs_of_nonpos (by linarith)] at hle
      linarith
  · by_contra hc
    push Not at hc
    have hx := hpos s₁.x
    rcases hmono with hm | hm
    · have a1 := hm hs0 hx hc
      have a2 := hm.monotoneOn hT hs0 hs
      rw [abs_of_nonpos (by linarith), abs_of_nonpos (by linarith)] at hle
      linarith
    · have a1 := hm hs0 hx hc
      have a2 := hm.antitoneOn hT hs0 hs
      rw [abs_of_nonneg (by linarith), abs_of_nonneg (by linarith)] at hle
      linarith

/-! ## A mechanism that slows down again and again -/

/-- Where the mechanism slows down, in powers of ten of the time, and by how much. -/
def lureNodes : List (ℚ × ℚ) := [
    (1595478309429643362517173394587 / 316912650057057350374175801344, 396316767208603648),
    (1236552467043901600951404842525845442559946807 / 178405961588244985132285746181186892047843328, 157625986957967360),
    (1744463866047747129248028441839591045375143991 / 245308197183836854556892900999131976565784576, 11258999068426240),
    (196980308549676794747511500238455113903181499979 / 27474518084589727710372004911902781375367872512, 5629499534213120),
    (24931968135746276339017865013372764170884207417 / 3434314760573715963796500613987847671920984064, 2814749767106560),
    (400511845724269537696018154966385143555312691659 / 54949036169179455420744009823805562750735745024, 1407374883553280),
    (50373410282570369207581196854364017877400606377 / 6868629521147431927593001227975695343841968128, 703687441776640),
    (115367845724779289084718780631749314694225010717 / 15699724619765558691641145663944446500210212864, 351843720888320),
    (14465184939459793563529694362335217898633343471 / 1962465577470694836455143207993055812526276608, 175921860444160),
    (1621701068771825995387058083333965321468099841739 / 219796144676717821682976039295222251002942980096, 87960930222080),
    (203022063163514926418961187900311540116499000137 / 27474518084589727710372004911902781375367872512, 43980465111040),
    (3249953366168567938975111321157405558685149375179 / 439592289353435643365952078590444502005885960192, 21990232555520),
    (406553600338107669367467842628241569768630191817 / 54949036169179455420744009823805562750735745024, 10995116277760),
    (929493994423150260878745399543469433302749777437 / 125597796958124469533129165311555572001681702912, 5497558138880),
    (116230953526756165037783021726300232724698939311 / 15699724619765558691641145663944446500210212864, 2748779069440),
    (13019467150549019600503430748098046981987446575819 / 1758369157413742573463808314361778008023543840768, 1374389534720),
    (147976620307787647914409797363256522516492485627 / 19981467697883438334816003572292931909358452736, 687194767360),
    (26045485529722955149207856650685568879723842843339 / 3516738314827485146927616628723556016047087681536, 343597383680),
    (3255995120782406070646561008819261984898466875337 / 439592289353435643365952078590444502005885960192, 171798691840),
    (7442503184010118035230958350837230382170947911197 / 1004782375664995756265033322492444576013453623296, 85899345920),
    (930357102225127136831809640638020351333223706031 / 125597796958124469533129165311555572001681702912, 42949672960),
    (9472872345887869858312219278746427296922020040769 / 1278813932664540053428224228626747642198940975104, 21474836480),
    (13025508905162857732174880435759903408200764075977 / 1758369157413742573463808314361778008023543840768, 10737418240),
    (208409742838158052831069819286910875448033390588619 / 28133906518619881175420933029788448128376701452288, 5368709120),
    (26051527284336793280879306338347425305937160343497 / 3516738314827485146927616628723556016047087681536, 2684354560),
    (59546576700705860230048661961187317973116532981277 / 8038259005319966050120266579939556608107628986368, 1342177280),
    (7443366291812094911184022591931781300201421839791 / 1004782375664995756265033322492444576013453623296, 671088640),
    (833658625038506959168882262611111926539380411429579 / 112535626074479524701683732119153792513506805809152, 335544320),
    (104207637559380406573105861753872556692355537948617 / 14066953259309940587710466514894224064188350726144, 167772160),
    (1667323801305638834285965520376713327994509772550859 / 225071252148959049403367464238307585027013611618304, 83886080),
    (208415784592771890962741268974572731874246708088777 / 28133906518619881175420933029788448128376701452288, 41943040),
    (476379164834271797788590290843988018700681213541917 / 64306072042559728400962132639516452864861031890944, 20971520),
    (59547439808507837106001726202281868891147006909871 / 8038259005319966050120266579939556608107628986368, 10485760),
    (337445956064862955051793298140036671174518578485052030690249039348081082312637 / 45551525888817720997069388691028367986177319216324551264072659877075353600000, 5242880),
    (67991219478527325953331780685788112117343034932241034857896074077209213240921415697678459332167213171 / 9178069294972660510291108893697294242433495994501242370866194408611100384213689863379915217305600000, 2621440),
    (43391050750864487960943825602443875996579582990197325176971536015812762870829982866593563343301125280035917850934511 / 5166793682102433101356857312936541460226501607598303715556040137370859855252138575620137796446491146670256947200000, 1802240),
    (26206750173221100654638571974795787383036084672038486237783943653958798028483971959286046644917851732182042961392781084406300039451 / 2908646262677093835388427355344192575244980605042837364852454699207385481439769921630832525934747253329401332910102776538726400000, 716800),
    (36266781564618280367329001487974757629685507432217198090866512540745519178003888025129294165591391506824902842257819082796234987803 / 3999388611181004023659087613598264790961848331933901376672125211410155036979683642242394723160277473327926832751391317740748800000, 51200),
    (4070296893483484259525989409575951557767730469830280787808274022141142502720406777033177909803777894108912719580487262251694201574367 / 447931524452272450649817812723005656587727013176596954187278023677937364141724567931148208993951077012727805268155827586963865600000, 25600),
    (510414612220510401211155431355407794567042545785935055073429382883508016061919833196924098927277654389136246339960123423624782231701 / 55991440556534056331227226590375707073465876647074619273409752959742170517715570991393526124243884626590975658519478448370483200000, 12800),
    (8175051153774403277763628144609303416315634369996915482806094743713772611774688649369482546093984515570703542686973499756512398647647 / 895863048904544901299635625446011313175454026353193908374556047355874728283449135862296417987902154025455610536311655173927731200000, 6400),
    (1023508894756875278490860273234576776885530533306764391948156973080086779693705067238962178463553482071860099228270903111727056865861 / 111982881113068112662454453180751414146931753294149238546819505919484341035431141982787052248487769253181951317038956896740966400000, 3200),
    (2340651382050891616319843659239429590487348881475740696114533740979861832840464627720298831239199679784897884128563710680878398970601 / 255960871115584257514181607270288946621558293243769688107016013530249922366699753103513262282257758292987317296089044335407923200000, 1600),
    (292813922832800719007181422427559248788929501192631866528230307639034900993896505046148333933729305348186829286413208926847372304883 / 31995108889448032189272700908786118327694786655471211013377001691281240295837469137939157785282219786623414662011130541925990400000, 800),
    (32803576715519917387189460554809414567603057770996723652793019073149553266100379883387310363835224244341448481325890924785421581087327 / 3583452195618179605198542501784045252701816105412775633498224189423498913133796543449185671951608616101822442145246620695710924800000, 400),
    (4102074589975064542169089324509590670796458458431740413196522514259559361484416471491190655681208448168203216558135581240340704670821 / 447931524452272450649817812723005656587727013176596954187278023677937364141724567931148208993951077012727805268155827586963865600000, 200),
    (65641610797847269533090570435076229435986288972329801212775584845730594138534634862077747454156877216035775066177780824823967157673567 / 7166904391236359210397085003568090505403632210825551266996448378846997826267593086898371343903217232203644884290493241391421849600000, 100),
    (8206828850265983560406728059542942529344362358598375108194343235832189470538698343827495291971415069629994039664621818745158901744101 / 895863048904544901299635625446011313175454026353193908374556047355874728283449135862296417987902154025455610536311655173927731200000, 50),
    (18759668423214567689270398599372837024678964482142279476105816627270382269057592117065517376400026165632061176554508660700151187263721 / 2047686968924674060113452858162311572972466345950157504856128108241999378933598024828106098258062066343898538368712354683263385600000, 25)]

/-- The mechanism over the logarithm of the time: increasing, and slower after each node. -/
def lureAt (u : ℚ) : ℚ := 25 * u + (lureNodes.map fun n => n.2 * min u n.1).sum

/-- The power of ten at which the search stands when its 50 rounds are over. -/
def lureEnd : ℚ :=
  2345191052978260228126000789944235178062881451275949214027140668425349955521037441214300652078832616079082240839656327679256470841523 /
    255960871115584257514181607270288946621558293243769688107016013530249922366699753103513262282257758292987317296089044335407923200000

/-- The mechanism over time. -/
noncomputable def lureMech (t : ℝ) : ℝ :=
  25 * Real.logb 10 t + (lureNodes.map fun n => (n.2 : ℝ) * min (Real.logb 10 t) n.1).sum

theorem lure_pow (q : ℚ) : lureMech ((10 : ℝ) ^ (q : ℝ)) = ((lureAt q : ℚ) : ℝ) := by
  unfold lureMech lureAt
  rw [logb_pow]
  push_cast
  congr 1
  induction lureNodes with
  | nil => simp
  | cons n rest ih => simp [ih]

theorem lure_steps : ∀ n ∈ lureNodes, 0 ≤ n.2 := by decide +kernel

theorem lure_mono : StrictMonoOn lureMech (Set.Ioi 0) := by
  intro a ha b hb hab
  have h : Real.logb 10 a < Real.logb 10 b := Real.logb_lt_logb (by norm_num) ha hab
  have hs : ∀ ns : List (ℚ × ℚ), (∀ n ∈ ns, 0 ≤ n.2) →
      (ns.map fun n => (n.2 : ℝ) * min (Real.logb 10 a) n.1).sum ≤
        (ns.map fun n => (n.2 : ℝ) * min (Real.logb 10 b) n.1).sum := by
    intro ns hns
    refine List.sum_le_sum fun n hn => ?_
    exact mul_le_mul_of_nonneg_left (min_le_min_right _ h.le) (by exact_mod_cast hns n hn)
  have := hs _ lure_steps
  unfold lureMech
  linarith

attribute [local instance] fieldArith in
/-- Its search is cut off: 51 evaluations. -/
theorem lure_run : ∃ log, minimize cfgQ (logged (elementwise (W := Unit) fun u => |lureAt (99 / 10) - lureAt u|))
    1 ((), []) = (.ok (List.replicate 1 lureEnd), ((), log)) ∧ log.length = 51 := by
  refine ⟨_, Prod.ext (y := (Except.ok [lureEnd], ((), _))) ?_ rfl, ?_⟩
  · decide +kernel
  · decide +kernel

theorem lure_residue (q : ℚ) : |lureMech (10 ^ ((99 / 10 : ℚ) : ℝ)) - lureMech (10 ^ (q : ℝ))| =
    ((|lureAt (99 / 10) - lureAt q| : ℚ) : ℝ) := by
  rw [lure_pow, lure_pow]
  push_cast
  rfl

theorem lure_end_le : (10 : ℝ) ^ (lureEnd : ℝ) ≤ 1500000000 := by
  have h1 : (lureEnd : ℝ) ≤ 55 / 6 := by
    have : lureEnd ≤ 55 / 6 := by decide +kernel
    have h := (Rat.cast_le (K := ℝ)).2 this
    push_cast at h
    exact h
  refine (Real.rpow_le_rpow_of_exponent_le (by norm_num) h1).trans ?_
  have h2 : ((10 : ℝ) ^ (55 / 6 : ℝ)) ^ 6 ≤ 1500000000 ^ 6 := by
    rw [← Real.rpow_natCast, ← Real.rpow_mul (by norm_num)]
    norm_num
  exact le_of_pow_le_pow_left₀ (by norm_num) (by norm_num) h2

theorem lure_T : (7600000000 : ℝ) ≤ 10 ^ ((99 / 10 : ℚ) : ℝ) := by
  have h2 : (7600000000 : ℝ) ^ 10 ≤ ((10 : ℝ) ^ ((99 / 10 : ℚ) : ℝ)) ^ 10 := by
    rw [← Real.rpow_natCast ((10 : ℝ) ^ _), ← Real.rpow_mul (by norm_num)]
    norm_num
  exact le_of_pow_le_pow_left₀ (by norm_num) (by positivity) h2

/-- **C104**: the search does not always find the equivalent time, and stress can heal. There are a mechanism that
strictly increases with time and a time `T` inside the bounds of the search such that a device that has seen `T` is
taken back, by an hour of further stress, to less than its degradation at a fifth of `T`. -/
theorem C104_healed_violated (w : Counts) : ∃ (F : ℝ → ℝ) (T : ℝ), StrictMonoOn F (Set.Ioi 0) ∧ 0 < T ∧
    T < 10 ^ 10 ∧ ∃ s' r' w', simStress Ex.orderA (timeDev (timeMech .deg "s" F)) ⟨[], []⟩ (timeStep 3600000000) 0
      (timeState (F T) 1, timeReport 1) w = (.ok (s', r'), w') ∧
    ∃ y : ℝ, mechVal s' "vth" "m" = some (Arr3.full 1 1 1 (.fin y)) ∧ y < F (T / 5) := by
  obtain ⟨s', r', w', run, h, -⟩ := time_step (kind := .deg) (by decide) (unit := "s") (by decide)
    (timeState_start .deg "s" lureMech (lureMech (10 ^ ((99 / 10 : ℚ) : ℝ))) 1) (us := 3600000000) (by decide)
    (by decide) 0 w
  obtain ⟨log, hlog, -⟩ := lure_run
  have v := time_value (R := fun u => |lureAt (99 / 10) - lureAt u|) lure_residue hlog h rfl (q := 3600)
    (by decide +kernel) (by push_cast; linarith [lure_end_le])
  have hT := lure_T
  have hpos : (0 : ℝ) < 10 ^ (lureEnd : ℝ) := Real.rpow_pos_of_pos (by norm_num) _
  refine ⟨lureMech, 10 ^ ((99 / 10 : ℚ) : ℝ), lure_mono, by linarith, ?_, s', r', w', run, _, v, ?_⟩
  · calc (10 : ℝ) ^ ((99 / 10 : ℚ) : ℝ) < 10 ^ (10 : ℝ) :=
          Real.rpow_lt_rpow_of_exponent_lt (by norm_num) (by norm_num)
      _ = 10 ^ 10 := by norm_num
  · refine lure_mono (Set.mem_Ioi.2 ?_) (Set.mem_Ioi.2 ?_) ?_
    · push_cast; linarith
    · linarith
    · push_cast
      push_cast at hT
      linarith [lure_end_le]

/-- The search that finds 100 s stays above the starting time. -/
example : ∃ log out, minimize (equivTimeCfg (Ext ℝ)) (logged (elementwise (W := Unit) exRes)) 3
      ((), []) = (.ok out, ((), log)) ∧ ∃ t : ℝ, out[1]? = some (.fin t) ∧ startTime ≤ t := by
  obtain ⟨log, h1, h2⟩ := ex_run
  refine ⟨log, _, h1, ?_⟩
  have h0 : exMech 100 = 0 := by
    have : Real.logb 10 100 = 2 := by
      rw [show (100 : ℝ) = 10 ^ (2 : ℝ) by norm_num, Real.logb_rpow (by norm_num) (by norm_num)]
    simp [exMech, this]
  obtain ⟨t, h3, -, -, h4, -⟩ := C104_side_partial (elementwise exRes) 3 () () log _ h1 1 (by norm_num) exMech
    100 (by norm_num) (.inl exMech_mono) exRes (fun _ _ => by rw [h0]; rfl) (by
      rintro k x y ⟨xs, fs, ha, hb, hc⟩
      have := minimize_elementwise_log h1 _ (List.mem_of_getElem? ha)
      simp only [Except.ok.injEq] at this
      rw [this, List.getElem?_map, hb] at hc
      simpa using hc.symm)
  refine ⟨t, h3, h4 ?_⟩
  calc startTime ≤ (10 : ℝ) ^ (2 : ℝ) := Real.rpow_le_rpow_of_exponent_le (by norm_num) (by norm_num)
    _ = 100 := by norm_num

end Gerabaldi.Props
