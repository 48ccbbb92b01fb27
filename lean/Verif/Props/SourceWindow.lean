import Verif.Src.Frames
import Verif.Src.Tables
import Verif.Props.Source
import Verif.Props.Checked
import Verif.Props.Ui
import Verif.Props.Bip44

/-!
# C115, C116: the text of the window and the text that fills the tables

The same as C113 for functions that assign package variables: the handlers of examples/ui/one and the pieces of its loop (C115), and the functions
that fill the tables (C116).
-/

namespace Bips

open Src

variable (W : World)

/-- **C115**, the pieces of text one by one: the handlers, the checks of a frame, the arrows, the tabs, the labels, the radio buttons. -/
theorem C115_pieces (u : Ui) (slider : Ui.Slider) :
    (u.derivationPath.length < 2 ^ 62 →
      Ends W .main_onKeyPathChange (uiVals u slider) (.ok (uiVals (u.onKeyPathChange W.H W.R) slider)) ∧
      Ends W .main_onMnemonicChange (uiVals u slider) (uiOut slider (u.onMnemonicChange W.H W.S W.R)) ∧
      Ends W .main_onMnemonicPassphraseChange (uiVals u slider) (uiOut slider (u.onMnemonicPassphraseChange W.H W.S W.R)) ∧
      Ends W .main_onSeedChange (uiVals u slider) (uiOut slider (u.onSeedChange W.H W.R)) ∧
      Ends W .main_onRootKeyStrChange (uiVals u slider) (.ok (uiVals (u.onRootKeyStrChange W.H W.R) slider)) ∧
      ((∀ n, (W.read n).length = n) →
        Ends W .main_onAutoCreateMnemonicClicked (uiVals u slider) (uiOut slider (u.onAutoCreateMnemonicClicked W.H W.S W.R W.read)))) ∧
    (u.derivationField.length < 2 ^ 62 →
      Ends W .main_OnDerivationPathChange (uiVals u slider) (.ok (uiVals (u.onDerivationPathChange W.H W.R) slider))) ∧
    (∀ c : Bool, (c = true → ∀ n, (W.read n).length = n) → u.derivationStr.length < 2 ^ 62 → u.derivationField.length < 2 ^ 62 →
      Ends W .main_update (uiVals u slider ++ [.bool c]) (uiOut slider (u.update W.H W.S W.R (if c then some W.read else none)))) ∧
    (∀ c : Bool, u.selected < 2 ^ 62 → Ends W .main_left (uiVals u slider ++ [.bool c])
      (.ok (if c then uiVals u.clickLeft (if u.selected > 0 then slider.pushRight else slider) else uiVals u slider))) ∧
    (∀ c : Bool, -2 ^ 62 ≤ u.selected → u.tabs.length < 2 ^ 62 → Ends W .main_right (uiVals u slider ++ [.bool c])
      (.ok (if c then uiVals u.clickRight (if u.selected < (u.tabs.length : Int) - 1 then slider.pushLeft else slider) else uiVals u slider))) ∧
    (∀ (i : Nat) (c : Bool), Ends W .main_tab (uiVals u slider ++ [.int i, .bool c])
      (if i < u.tabs.length then
        .ok (if c then uiVals (u.clickTab i) (if u.selected < i then slider.pushLeft else if u.selected > i then slider.pushRight else slider) else uiVals u slider)
      else .panic)) ∧
    (∀ (i : Nat) (k : KeyPath), u.tabs[i]? = some k →
      Ends W .main_tabText (uiVals u slider ++ [.int i]) (.ok (uiVals u slider ++ [.str (pathString k.path)]))) ∧
    (u.shown = .ok none → Ends W .main_labels (uiVals u slider) (.ok (uiVals u slider ++ [.list []]))) ∧
    (∀ k, u.shown = .ok (some k) → Ends W .main_labels (uiVals u slider) (.ok (uiVals u slider ++ [.list ((k.labels W.H W.R).map .str)]))) ∧
    Ends W .main_start (uiVals u slider) (.ok (uiVals { u with radio := str "12" } slider)) ∧
    (∀ (i : Nat) (k : Bytes), [str "12", str "15", str "18", str "21", str "24"][i]? = some k →
      Ends W .main_radio [.int i] (.ok [.str k, .str (k ++ str " words")])) := by
  refine ⟨fun hp => ⟨.of 6 32 fun L n hL => window_onKeyPathChange W L hL n u slider hp, .of 7 32 fun L n hL => window_onMnemonicChange W L hL n u slider hp,
      .of 7 32 fun L n hL => window_onMnemonicPassphraseChange W L hL n u slider hp, .of 7 32 fun L n hL => window_onSeedChange W L hL n u slider hp,
      .of 7 32 fun L n hL => window_onRootKeyStrChange W L hL n u slider hp,
      fun hr => .of 7 32 fun L n hL => window_onAutoCreateMnemonicClicked W L hL hr n u slider hp⟩,
    fun hp => .of 7 32 fun L n hL => window_OnDerivationPathChange W L hL n u slider hp,
    fun c hr hs hf => .of 8 32 fun L n hL => window_update W L hL n u slider c hr hs hf,
    fun c hs => .of 2 32 fun L n _ => window_left W L n u slider c hs, fun c hs ht => .of 2 32 fun L n _ => window_right W L n u slider c hs ht,
    fun i c => .of 2 32 fun L n _ => window_tab W L n u slider i c, fun i k hk => .of 2 32 fun L n _ => ?_,
    fun h => .of 6 32 fun L n hL => ?_, fun k h => .of 6 32 fun L n hL => ?_, .of 1 32 fun L n _ => window_start W L n u slider,
    fun i k hk => .of 1 32 fun L n _ => ?_⟩
  · rw [window_tabText, hk]
  · rw [window_labels W L hL n u slider, h]
    rfl
  · rw [window_labels W L hL n u slider, h]
    rfl
  · have hi : i < 5 := (List.getElem?_eq_some_iff.1 hk).1
    rw [window_radio W L n i hi]
    interval_cases i <;> cases hk <;> rfl

/-- **C115**, one frame: the text leaves the variables the model leaves and shows the texts the model shows, or panics where the model does. -/
theorem C115_frame (u : Ui) (slider : Ui.Slider) (hs : Small u) (f : Frame) (hf : Frame.Ok f) {n L : Nat} (hn : 8 ≤ n) (hL : 32 < L) :
    (∀ u', u.frame W.H W.S W.R f = .ok u' → Small u' ∧ ∃ slider', Pushed slider slider' ∧
      srcFrame W L n f (uiVals u slider) = .ok (uiVals u' slider' ++ [.list ((Ui.texts W u').map .str)])) ∧
    (u.frame W.H W.S W.R f = .panic → srcFrame W L n f (uiVals u slider) = .panic) := by
  obtain ⟨m, rfl⟩ : ∃ m, n = m + 8 := ⟨n - 8, by omega⟩
  have h := frame_run W L hL m f hf u slider hs
  refine ⟨fun u' h' => ?_, fun h' => ?_⟩
  · rw [h'] at h
    exact ⟨h.2, h.1⟩
  · rwa [h'] at h

/-- **C115**, the window from its start, whatever is done to it: the text leaves the variables the model leaves, or panics where the model does. -/
theorem C115_window (fs : List Frame) (hf : ∀ f ∈ fs, Frame.Ok f) {n L : Nat} (hn : 8 ≤ n) (hL : 32 < L) :
    (∀ u, Ui.run W.H W.S W.R {} fs = .ok u → ∃ slider, Pushed Ui.Slider.zero slider ∧ srcWindow W L n fs = .ok (uiVals u slider)) ∧
    (Ui.run W.H W.S W.R {} fs = .panic → srcWindow W L n fs = .panic) := by
  obtain ⟨m, rfl⟩ : ∃ m, n = m + 8 := ⟨n - 8, by omega⟩
  have h := window_run W L hL m fs hf
  refine ⟨fun u h' => ?_, fun h' => ?_⟩
  · rwa [h'] at h
  · rwa [h'] at h

/-- The hypotheses are met by the window as it starts and by a frame in which the button is clicked and a path is typed. -/
example : Small {} ∧ Frame.Ok { generate := some fun n => List.replicate n 7, derivationEdit := some (str "m/44'/0") } :=
  ⟨⟨by decide, by decide, by decide, by decide, by decide⟩,
    ⟨by intro r hr n; cases hr; exact List.length_replicate, by intro p hp; cases hp; decide⟩⟩

/-- Running the text itself, by evaluation: the left arrow with the third of three tabs selected, and the fourth radio button. -/
example (k : KeyPath) : run W 40 2 .main_left (uiVals { ({} : Ui) with tabs := [k, k, k], selected := 2 } Ui.Slider.zero ++ [.bool true]) =
      .ok (uiVals { ({} : Ui) with tabs := [k, k, k], selected := 1 } Ui.Slider.zero.pushRight) ∧
    run W 40 1 .main_radio [.int 3] = .ok [.str (str "21"), .str (str "21 words")] :=
  ⟨by rfl, by rfl⟩

/-- The call of `f` with `args` ends with results of which `P` holds. -/
def EndsIn (W : World) (f : Fn) (args : List Val) (P : List Val → Prop) : Prop :=
  ∃ N, ∀ n L, N ≤ n → N ≤ L → ∃ r, run W L n f args = .ok r ∧ P r

theorem EndsIn.of {W : World} {f : Fn} {args : List Val} {P : List Val → Prop} (d : Nat)
    (h : ∀ L n, ∃ r, run W L (n + d) f args = .ok r ∧ P r) : EndsIn W f args P := by
  refine ⟨d, fun n L hn _ => ?_⟩
  obtain ⟨m, rfl⟩ : ∃ m, n = m + d := ⟨n - d, by omega⟩
  exact h L m

/-- The words of a list and where each is found: at its last occurrence. -/
def WordsAre (l : List Bytes) (r : List Val) : Prop :=
  ∃ t, r = [.list (l.map .str), .list t] ∧
    (∀ w, ∀ j : Nat, tableGet t (.str w) = some (.int j) ↔ l[j]? = some w ∧ ∀ q, j < q → l[q]? ≠ some w) ∧
    ∀ w, tableGet t (.str w) = none ↔ w ∉ l

theorem WordsAre.of {l : List Bytes} {t : List Val} (h : WordTable t (setWordList l).map) : WordsAre l [.list (l.map .str), .list t] := by
  refine ⟨t, rfl, fun w j => ?_, fun w => ?_⟩
  · rw [h w, ← setWordList_map_some]
    cases (setWordList l).map w <;> simp
  · rw [h w, ← setWordList_map_none]
    cases (setWordList l).map w <;> simp

/-- **C116**, word lists: `SetWordList`, whatever the variables held before, and `init`. -/
theorem C116_words (a b : Val) (l : List Bytes) :
    EndsIn W .bip39_SetWordList [a, b, .list (l.map .str)] (WordsAre l) ∧ EndsIn W .bip39_init [a, b] (WordsAre english.list) := by
  refine ⟨.of 1 fun L n => ?_, .of 2 fun L n => ?_⟩
  · obtain ⟨t, h1, h2⟩ := words_SetWordList W L n a b l
    exact ⟨_, h1, .of h2⟩
  · obtain ⟨t, h1, h2⟩ := words_init W L n a b
    exact ⟨_, h1, .of h2⟩

/-- **C116**, versions: `init` of package bip32, run over the rows in any order, fills the six variables as the model does; in particular, a
lookup by a flag gives the versions with that flag, in the order of the rows. -/
theorem C116_versions (order : List (Bytes × List VersionBytes)) :
    EndsIn W .bip32_init [.list (order.map entryVal), .list [], .list [], .list [], .list [], .list [], .list []] fun r =>
      ∃ t1 t2 t3 t4 t5, r = [.list (order.map entryVal), .list ((order.flatMap (·.2)).map .vb), .list t1, .list t2, .list t3, .list t4, .list t5] ∧
        VersionTables (Registry.init order) ((order.flatMap (·.2)).map .vb) t1 t2 t3 t4 t5 ∧
        ∀ v h, h ∈ order.flatMap (·.2) →
          (h.pvtKeyFlag = v → tableGet t1 (.u32 v) = some (.list (((order.flatMap (·.2)).filter fun h => h.pvtKeyFlag = v).map .vb))) ∧
          (h.pubKeyFlag = v → tableGet t2 (.u32 v) = some (.list (((order.flatMap (·.2)).filter fun h => h.pubKeyFlag = v).map .vb))) := by
  refine .of 5 fun L n => ?_
  obtain ⟨l, t1, t2, t3, t4, t5, h1, h2⟩ := version_init W L (fun h => have := C94_paths [] 0 0 h; ⟨this.2.2.2.2.1, this.2.2.2.2.2.1, this.2.2.2.2.2.2.1⟩) n order
  have hl : l = (order.flatMap (·.2)).map .vb := by rw [h2.all, init_slice]
  subst hl
  refine ⟨_, h1, t1, t2, t3, t4, t5, rfl, h2, fun v h hh => ⟨fun e => ?_, fun e => ?_⟩⟩
  · rw [h2.pvt v, init_pvtFlag, if_neg]
    exact List.ne_nil_of_mem (List.mem_filter.2 ⟨hh, by simpa using e⟩)
  · rw [h2.pub v, init_pubFlag, if_neg]
    exact List.ne_nil_of_mem (List.mem_filter.2 ⟨hh, by simpa using e⟩)

/-- **C116**, coins: the comparison the sort is given is the order of the names; and on the coins in an order the sort may leave, `init` of package
bip44 leaves the coins and tables of the model: every coin is found by its type and by its path component. -/
theorem C116_coins {sorted : List Coin} (h : SortOutcome coinTable sorted) :
    (∀ (i j : Nat) (a b : Coin), sorted[i]? = some a → sorted[j]? = some b →
      Ends W .bip44_less [.list (sorted.map coinVal), .int i, .int j] (.ok [.list (sorted.map coinVal), .bool (decide (a.name < b.name))])) ∧
    EndsIn W .bip44_init [.list (sorted.map coinVal), .list [], .list [], .list []] fun r =>
      ∃ t1 t2 t3, r = [.list ((CoinReg.init sorted).coins.map coinVal), .list t1, .list t2, .list t3] ∧
        CoinTable .u32 t1 (CoinReg.init sorted).byType ∧ CoinTable .str t2 (CoinReg.init sorted).byName ∧
        CoinTable .u32 t3 (CoinReg.init sorted).byPathComponent ∧
        ∀ c ∈ (CoinReg.init sorted).coins, tableGet t1 (.u32 c.type) = some (coinVal c) ∧ tableGet t3 (.u32 c.pathComponent) = some (coinVal c) := by
  refine ⟨fun i j a b ha hb => .of 1 32 fun L n _ => coin_less W L n sorted i j a b ha hb, .of 2 fun L n => ?_⟩
  obtain ⟨t1, t2, t3, h1, h2, h3, h4⟩ := coins_init W L n sorted
  refine ⟨_, h1, t1, t2, t3, rfl, h2, h3, h4, fun c hc => ⟨?_, ?_⟩⟩
  · rw [h2, (C57_by_type h c.type c).2 ⟨hc, rfl⟩]
    rfl
  · rw [h4, (C57_by_path_component h c.pathComponent c).2 ⟨hc, rfl⟩]
    rfl

set_option maxRecDepth 10000 in
/-- Running the text itself, by evaluation: `SetWordList` with a list in which a word occurs twice. -/
example : run W 40 1 .bip39_SetWordList [.nil, .nil, .list [.str (str "a"), .str (str "b"), .str (str "a")]] =
    .ok [.list [.str (str "a"), .str (str "b"), .str (str "a")], .list [.list [.str (str "a"), .int 2], .list [.str (str "b"), .int 1]]] := by rfl

/-- **C116**, the seed of package bip32: 256 bytes of the random source. -/
theorem C116_seed : Ends W .bip32_NewSeed [] (.ok [.bytes (W.read 256), .err none]) :=
  .of 1 32 fun L n _ => bip32_seed W L n

end Bips
