import Verif.Proofs.PosWorld
import Verif.Proofs.Render
import Verif.Proofs.PosWords
import Verif.Props.Posseg
import Verif.Props.Dictionary
import Verif.Props.Userdict
/-!
# C43, C60, C61: the tag tables of POS tokenizers
-/

set_option linter.unusedSectionVars false

namespace Jieba.Props
open Jieba Jieba.Spec Jieba.Pos Jieba.PosData

variable {F : Type _} [LinearOrder F]

/-! ## C43 -/

/-- The operation neither gives `word` another tag on tokenizer `t`, nor makes `t` load another dictionary, nor creates a
second POS tokenizer on `t`, nor re-initialises POS tokenizer `k`. -/
def KeepsTag (S : Sys F) (k t : Nat) (word tag : Str) : POp → Prop
  | .op o => ∀ w0, ¬ (o.allowed S w0).retarget t ∧
      ∀ x f g, (o.allowed S w0).add x t word f g → truthyStr g = false ∨ g = some tag
  | .new k' t' => k' ≠ k ∧ t' ≠ t
  | .init k' _ _ => k' ≠ k
  | .cut _ _ _ _ => True

/-- The tag is pending in the tokenizer or already in the table of the POS tokenizer. -/
def Known (word tag : Str) (known : Prop) (x : Tok) : Prop :=
  x.initialized = true ∧ (PyDict.keys x.tags).Nodup ∧
    (x.tags.get? word = some tag ∨ x.tags.get? word = none ∧ known)

theorem known_prim (S : Sys F) (t : Nat) (word tag : Str) (known : Prop) (A : Allowed)
    (hr : ¬ A.retarget t) (ha : ∀ x f g, A.add x t word f g → truthyStr g = false ∨ g = some tag) (a b : World)
    (hab : Prim S A a b) (hk : Known word tag known (a.tok t)) : Known word tag known (b.tok t) := by
  obtain ⟨i1, i2, i3⟩ := hk
  have keep : ∀ b : World, b.tok t = a.tok t → Known word tag known (b.tok t) := by
    intro b hb; rw [hb]; exact ⟨i1, i2, i3⟩
  have other : ∀ u (b : World), (a.tok u).initialized = false → (∀ v, v ≠ u → b.tok v = a.tok v) → b.tok t = a.tok t := by
    intro u b hu hb
    apply hb
    rintro rfl
    rw [i1] at hu; exact Bool.noConfusion hu
  cases hab with
  | add u word' f g hi hp =>
    by_cases hu : t = u
    · subst hu
      rw [addFreq_tok_self]
      refine ⟨i1, ?_, ?_⟩
      · simp only []
        split
        · exact PyDict.nodup_keys_set _ _ _ i2
        · exact i2
      · simp only []
        split
        · next hg =>
          rw [PyDict.get?_set]
          split
          · next he =>
            subst he
            rcases ha a f g hp with h | h
            · rw [h] at hg; exact Bool.noConfusion hg
            · subst h; left; rfl
          · exact i3
        · exact i3
    · exact keep _ (addFreq_tok_ne _ _ _ _ _ _ hu)
  | load u cf x hi h1 h2 h3 =>
    exact keep _ (other u _ hi (fun v hv => by rw [markInit_tok, if_neg hv, setTok_tok_ne _ _ _ _ hv]))
  | build u data x hi h1 h2 =>
    exact keep _ (other u _ hi (fun v hv => by rw [markInit_tok, if_neg hv, setTok_tok_ne _ _ _ _ hv]))
  | buildDump u data x hi h1 h2 =>
    exact keep _ (other u _ hi (fun v hv => by rw [markInit_tok, if_neg hv, setFile_tok, setTok_tok_ne _ _ _ _ hv]))
  | retarget u p h =>
    refine keep _ (setTok_tok_ne _ _ _ _ ?_)
    rintro rfl; exact hr h
  | new u d h =>
    refine keep _ (setTok_tok_ne _ _ _ _ ?_)
    rintro rfl; exact hr h
  | write p data h => exact keep _ rfl
  | remove p h => exact keep _ rfl
  | tick => exact keep _ rfl

theorem known_op (S : Sys F) (t : Nat) (word tag : Str) (known : Prop) (o : Op)
    (h : ∀ w0, ¬ (o.allowed S w0).retarget t ∧ ∀ x f g, (o.allowed S w0).add x t word f g → truthyStr g = false ∨ g = some tag)
    (w : World) (hk : Known word tag known (w.tok t)) : Known word tag known ((o.run S w).tok t) :=
  (op_prims S w o).inv (fun w => Known word tag known (w.tok t)) hk
    (fun a b hab => known_prim S t word tag known _ (h w).1 (h w).2 a b hab)

/-- Initialising another tokenizer. -/
theorem known_init (S : Sys F) (t u : Nat) (hu : u ≠ t) (word tag : Str) (known : Prop) (d : Option Path) (io : Bool)
    (w : World) (hk : Known word tag known (w.tok t)) : Known word tag known ((initTok S w u d io).1.tok t) := by
  have := known_op S t word tag known (.init u d io) (by
    intro w0
    refine ⟨?_, ?_⟩
    · rintro ⟨h, -⟩; exact hu h.symm
    · intro x f g h; simp [Op.allowed] at h) w hk
  exact this

/-- The tag of `word` is known to POS tokenizer `k`, the only one on tokenizer `t`. -/
def TagInv (k t : Nat) (word tag : Str) (p : PWorld) : Prop :=
  (p.pos k).tok = t ∧ (∀ j, j ≠ k → (p.pos j).tok ≠ t) ∧
    Known word tag ((p.pos k).tab.get? word = some tag) (p.w.tok t)

theorem tagInv_run (P : PSys F) (k t : Nat) (word tag : Str) (op : POp) (h : KeepsTag P.sys k t word tag op) (p : PWorld)
    (hp : TagInv k t word tag p) : TagInv k t word tag (op.run P p) := by
  obtain ⟨h1, h2, h3⟩ := hp
  cases op with
  | op o => exact ⟨h1, h2, known_op P.sys t word tag _ o h p.w h3⟩
  | new k' t' =>
    simp only [POp.run]
    unfold newPos
    split
    · exact ⟨h1, h2, h3⟩
    · split
      · exact ⟨h1, h2, h3⟩
      · refine ⟨?_, ?_, ?_⟩
        · rw [setPos_ne _ _ _ _ h.1.symm]; exact h1
        · intro j hj
          by_cases hjk : j = k'
          · subst hjk; rw [setPos_self]; exact h.2
          · rw [setPos_ne _ _ _ _ hjk]; exact h2 j hj
        · rw [setPos_ne _ _ _ _ h.1.symm]; exact h3
  | init k' d io =>
    have hk' : k' ≠ k := h
    have hw := known_init P.sys t (p.pos k').tok (h2 k' hk') word tag ((p.pos k).tab.get? word = some tag) d io p.w h3
    simp only [POp.run]
    unfold initPos
    generalize initTok P.sys p.w (p.pos k').tok d io = r at hw ⊢
    obtain ⟨w, r⟩ := r
    cases r with
    | error e => exact ⟨h1, h2, hw⟩
    | ok u =>
      simp only []
      split
      · exact ⟨h1, h2, hw⟩
      · refine ⟨?_, ?_, ?_⟩
        · rw [setPos_ne _ _ _ _ hk'.symm]; exact h1
        · intro j hj
          by_cases hjk : j = k'
          · subst hjk; rw [setPos_self]; exact h2 j hj
          · rw [setPos_ne _ _ _ _ hjk]; exact h2 j hj
        · rw [setPos_ne _ _ _ _ hk'.symm]; exact hw
  | cut k' hm s io =>
    obtain ⟨m1, m2, m3, m4⟩ := moveTags_spec p k'
    simp only [POp.run]
    by_cases hk' : k' = k
    · subst hk'
      rw [cutPW_of_init P p k' hm io s (by rw [h1]; exact h3.1)]
      refine ⟨by rw [m1]; exact h1, fun j hj => by rw [m2 j hj]; exact h2 j hj, ?_⟩
      rw [m4, h1, setTok_tok_self]
      refine ⟨h3.1, by simp [PyDict.keys], Or.inr ⟨rfl, ?_⟩⟩
      rw [m3, get?_update _ _ (by rw [h1]; exact h3.2.1), h1]
      rcases h3.2.2 with h | ⟨h, h'⟩ <;> rw [h]
      exact h'
    · have ht := h2 k' hk'
      have hw : Known word tag ((p.pos k).tab.get? word = some tag) ((moveTags p k').w.tok t) := by
        rw [m4, setTok_tok_ne _ _ _ _ ht.symm]; exact h3
      have hinv := cutBlocksPW_inv P (fun w => Known word tag ((p.pos k).tab.get? word = some tag) (w.tok t))
        (p.pos k').tok io (by
          intro w hw
          unfold checkInit
          split
          · exact hw
          · exact known_init P.sys t _ ht word tag _ none io w hw) k' hm
        (reHanInternal.split (strdecode P.sys.gbk s)) (moveTags p k') m1 hw
      unfold cutPW TagInv
      rw [hinv.2]
      have hpk : (moveTags p k').pos k = p.pos k := m2 k (fun h => hk' h.symm)
      refine ⟨by rw [hpk]; exact h1, ?_, ?_⟩
      · intro j hj
        by_cases hjk : j = k'
        · subst hjk; rw [m1]; exact h2 j hj
        · rw [m2 j hjk]; exact h2 j hj
      · rw [hpk]; exact hinv.1

theorem runPOps_inv (P : PSys F) (I : PWorld → Prop) (ops : List POp) (p : PWorld) (h0 : I p)
    (hs : ∀ op ∈ ops, ∀ p, I p → I (op.run P p)) : I (runPOps P p ops) := by
  induction ops generalizing p with
  | nil => exact h0
  | cons op ops ih =>
    exact ih _ (hs op List.mem_cons_self p h0) (fun op' h' => hs op' (List.mem_cons_of_mem _ h'))

/-- C43, state: after `add_word(word, f, tag)` and any history that keeps the tag, the only POS tokenizer on that tokenizer
cuts with a table in which `word` has that tag. -/
theorem C43_tag_known (P : PSys F) (p : PWorld) (k t : Nat) (word tag : Str) (f : Int) (io : Bool) (ops : List POp)
    (htag : tag ≠ []) (hi : (p.w.tok t).initialized = true) (hnd : (PyDict.keys (p.w.tok t).tags).Nodup)
    (hk : (p.pos k).tok = t) (hone : ∀ j, j ≠ k → (p.pos j).tok ≠ t)
    (hops : ∀ op ∈ ops, KeepsTag P.sys k t word tag op) (hm : Bool) (text : PyText) (io' : Bool) :
    ∃ q : PWorld, q = runPOps P p (.op (.addWord t (.str word) (.int f) (some tag) io) :: ops) ∧
      (cutPW P q k hm text io').2 = Pos.cut ((moveTags q k).env P k) hm (strdecode P.sys.gbk text) ∧
      tagOf ((moveTags q k).env P k).tab word = tag := by
  refine ⟨_, rfl, ?_⟩
  have hrun : runPOps P p (.op (.addWord t (.str word) (.int f) (some tag) io) :: ops) =
      runPOps P { p with w := addFreq p.w t word f (some tag) } ops := by
    unfold runPOps
    rw [List.foldl_cons]
    congr 1
    simp only [POp.run, Op.run]
    unfold addWord
    rw [checkInit_of_init P.sys p.w t io hi]; rfl
  have h0 : TagInv k t word tag { p with w := addFreq p.w t word f (some tag) } := by
    refine ⟨hk, hone, ?_⟩
    rw [addFreq_tok_self]
    have htr : truthyStr (some tag) = true := by
      cases tag with
      | nil => exact absurd rfl htag
      | cons c l => rfl
    refine ⟨hi, ?_, ?_⟩
    · simp only [htr, if_true]
      exact PyDict.nodup_keys_set _ _ _ hnd
    · left
      simp [htr]
  have hinv := runPOps_inv P (TagInv k t word tag) ops _ h0 (fun op hop p => tagInv_run P k t word tag op (hops op hop) p)
  rw [hrun]
  generalize runPOps P { p with w := addFreq p.w t word f (some tag) } ops = q at hinv ⊢
  obtain ⟨i1, i2, i3⟩ := hinv
  rw [cutPW_of_init P q k hm io' text (by rw [i1]; exact i3.1)]
  refine ⟨rfl, ?_⟩
  obtain ⟨m1, m2, m3, m4⟩ := moveTags_spec q k
  change tagOf ((moveTags q k).pos k).tab word = tag
  unfold tagOf
  rw [m3, get?_update _ _ (by rw [i1]; exact i3.2.1), i1]
  rcases i3.2.2 with h | ⟨h, h'⟩ <;> rw [h]
  · rfl
  · simp only [h']; rfl

theorem tagged_mem_eng {tag : Str → Str} {path : List Str} {ts : List Pair} (h : Tagged IsLetter tag engRun path ts) :
    ∀ q ∈ ts, q.2 = tag q.1 ∨ ∀ c ∈ q.1, isAlnum c = true := by
  induction h with
  | nil => simp
  | word w ps ts _ _ ih =>
    intro q hq
    rcases List.mem_cons.mp hq with rfl | hq
    · left; rfl
    · exact ih q hq
  | run r ps qs ts _ h2 _ h4 _ ih =>
    intro q hq
    rcases List.mem_append.mp hq with hq | hq
    · rw [show qs = [(r.flatten, flagEng)] from h4] at hq
      simp at hq; subst hq
      right
      intro c hc
      obtain ⟨w, hw, hc⟩ := List.mem_flatten.mp hc
      obtain ⟨d, rfl, hd⟩ := h2 w hw
      simp at hc; subst hc; exact hd
    · exact ih q hq

/-- C43 without HMM: every word of word characters that is not a run of ASCII letters and digits gets the tag of the
table ('x' if it has none). -/
theorem C43_tags_no_hmm (E : PEnv F) (s : Str) : ∀ q ∈ (Pos.cut E false s).out, (∀ c ∈ q.1, isWordChPos c = true) →
    (∃ c ∈ q.1, isAlnum c = false) → q.2 = tagOf E.tab q.1 := by
  intro q hq hw ⟨c, hc, ha⟩
  rw [Pos.cut_eq_scan] at hq
  obtain ⟨b, -, -, ⟨hb, h⟩ | ⟨hb, h⟩⟩ := scan_out_mem _ _ _ _ _ hq
  · change q ∈ (Pos.cutDAGNoHMM E b).out at h
    unfold Pos.cutDAGNoHMM at h
    cases hr : calcRoute E.A E.freq E.total b (getDAG E.freq b) with
    | error e => rw [hr] at h; simp at h
    | ok route =>
      rw [hr] at h
      simp only [Gen.ofExcept_ok] at h
      obtain ⟨ts, h1, h2⟩ := noHmmLoop_tagged E.tab b (nl_notMem b hb) route (routeWF_of_calc _ _ _ _ _ hr) b.length 0
        (by omega) [] (by simp)
      simp only [List.flatten_nil] at h1
      rw [h1] at h
      rcases tagged_mem_eng h2 q h with h | h
      · exact h
      · rw [h c hc] at ha; exact Bool.noConfusion ha
  · exfalso
    simp only [Gen.ok_out, List.mem_map] at h
    obtain ⟨w, hw', rfl⟩ := h
    have : c ∈ b := by
      rw [← (charTokens_flatten b).1]; exact List.mem_flatten.mpr ⟨w, hw', hc⟩
    have h1 := hb c this
    rw [hw c hc] at h1; exact Bool.noConfusion h1

/-- C43 without HMM, for the added word. -/
theorem C43_user_tag_no_hmm (P : PSys F) (p : PWorld) (k t : Nat) (word tag : Str) (f : Int) (io : Bool) (ops : List POp)
    (htag : tag ≠ []) (hi : (p.w.tok t).initialized = true) (hnd : (PyDict.keys (p.w.tok t).tags).Nodup)
    (hk : (p.pos k).tok = t) (hone : ∀ j, j ≠ k → (p.pos j).tok ≠ t)
    (hops : ∀ op ∈ ops, KeepsTag P.sys k t word tag op) (text : PyText) (io' : Bool)
    (hw : ∀ c ∈ word, isWordChPos c = true) (ha : ∃ c ∈ word, isAlnum c = false) :
    ∀ g, (word, g) ∈ (cutPW P (runPOps P p (.op (.addWord t (.str word) (.int f) (some tag) io) :: ops)) k false text io').2.out →
      g = tag := by
  intro g hg
  obtain ⟨q, rfl, h1, h2⟩ := C43_tag_known P p k t word tag f io ops htag hi hnd hk hone hops false text io'
  rw [h1] at hg
  rw [← h2]
  exact C43_tags_no_hmm _ _ (word, g) hg hw ha

/-- C43 with HMM: on a text of word characters, the words of the best path with at least two characters, and single characters
standing alone between them, get their tag from the table; a longer run of single characters is output with tags from the table
if it is a dictionary word, otherwise it is left to the HMM (`detail`), which loses nothing and tags by a best state sequence. -/
theorem C43_tags_hmm (E : PEnv F) (hT : Shipped E.tables) (hσ : ∀ s t l, (E.σ s t l).Perm l) (hA : MonoAdd E.A)
    (hp : PrefixClosed E.freq) (hn : NonNeg E.freq) (ht : 0 < E.total) (s : Str) (hne : s ≠ [])
    (hs : ∀ c ∈ s, isWordChPos c = true) :
    ∃ (path : List Str) (ts : List Pair) (detail : Str → List Pair), IsBest E.A E.freq E.total s path ∧ Pos.cut E true s = Gen.ok ts ∧
      (∀ b, IsSegmentation ((detail b).map Prod.fst) b) ∧ (∀ b, DetailPairs E.A E.tables b (detail b)) ∧
      Tagged (fun w => w.length = 1) (tagOf E.tab)
        (fun r qs => qs = if r.length = 1 ∨ DictWord E.freq r.flatten then r.map (fun w => (w, tagOf E.tab w)) else detail r.flatten)
        path ts := by
  obtain ⟨route, hr⟩ := calcRoute_total E.A E.freq hn E.total ht s
  have hwf := routeWF_of_calc E.A E.freq E.total s route hr
  obtain ⟨r, -, -, hbest, -⟩ := route_best E.A hA E.freq hp E.total s route hr s.length 0 s.length (by omega) (by simp) (le_refl _)
  have hd := cutDetail_spec E (shipped_ok _ hT) (shipped_bmes _ hT) hσ
  have hd1 : ∀ b, cutDetail E b = Gen.ok (cutDetail E b).out := by
    intro b
    apply Gen.eq_ok_of_err
    obtain ⟨ws, h, -⟩ := hd b
    have := congrArg Gen.err h
    exact this
  obtain ⟨ts, h1, h2⟩ := dagCutLoop_tagged E (fun b => (cutDetail E b).out) hd1 s route hwf s.length 0 (by omega) [] (by simp)
  simp only [List.flatten_nil] at h1
  refine ⟨pathFrom s route s.length 0, ts, fun b => (cutDetail E b).out, by simpa using hbest, ?_, ?_, ?_, by simp only [List.nil_append] at h2; exact h2⟩
  · rw [Pos.cut_eq_scan]
    have := scan_word isWordChPos (Pos.cutBlock E true) (fun b => Gen.ok ((charTokens b).map (fun w => (w, flagX)))) s [] hne hs
      (by simp)
    rw [List.append_nil] at this
    rw [this, scan_nil, Gen.andThen_ok_nil]
    change Pos.cutDAG E s = Gen.ok ts
    unfold Pos.cutDAG
    rw [hr, Gen.ofExcept_ok]
    exact h1
  · intro b
    obtain ⟨ws, h, hseg⟩ := hd b
    have := congrArg Gen.out h
    change (cutDetail E b).out.map Prod.fst = ws at this
    simp only [this]; exact hseg
  · intro b
    obtain ⟨qs, h3, h4⟩ := cutDetail_pairs E hA (shipped_ok _ hT) (shipped_bmes _ hT) hσ b
    simp only [h3]; exact h4

/-! A concrete world: `北京 40 ns\n大学 32 n\n`. -/

def taggedData : Bytes :=
  [229, 140, 151, 228, 186, 172, 32, 52, 48, 32, 110, 115, 10, 229, 164, 167, 229, 173, 166, 32, 51, 50, 32, 110, 10]

def samplePSys : PSys Int := ⟨sampleSys, smallTables, fun _ _ l => l⟩

/-- Tokenizer 0 is initialised; POS tokenizers 0 and 1 both belong to it. -/
def samplePWorld : PWorld :=
  (newPos (newPos ⟨(checkInit sampleSys { sampleWorld with defaultDict := taggedData } 0 true).1, fun _ => ⟨7, []⟩⟩ 0 0).1 1 0).1

/-- With one POS tokenizer only, after cutting and adding another word, the tag of 北京城 is used. -/
example : let p := (newPos ⟨(checkInit sampleSys { sampleWorld with defaultDict := taggedData } 0 true).1, fun _ => ⟨7, []⟩⟩ 0 0).1
    (p.w.tok 0).initialized = true ∧ (PyDict.keys (p.w.tok 0).tags).Nodup ∧ (p.pos 0).tok = 0 ∧ (p.pos 5).tok = 7 ∧
    (cutPW samplePSys (runPOps samplePSys p [.op (.addWord 0 (.str (lit ['北', '京', '城'])) (.int 90) (some (lit ['z', 'z'])) true),
      .cut 0 true (.str (lit ['大'])) true, .op (.addWord 0 (.str (lit ['大', '厦'])) (.int 3) (some (lit ['n'])) true)])
      0 false (.str (lit ['北', '京', '城', '大', '厦', '大', '学'])) true).2 =
      Gen.ok [(lit ['北', '京', '城'], lit ['z', 'z']), (lit ['大', '厦'], lit ['n']), (lit ['大', '学'], lit ['n'])] := by
  decide +kernel

example : ∀ op ∈ [POp.cut 0 true (.str (lit ['大'])) true, .op (.addWord 0 (.str (lit ['大', '厦'])) (.int 3) (some (lit ['n'])) true)],
    KeepsTag sampleSys 0 0 (lit ['北', '京', '城']) (lit ['z', 'z']) op := by
  intro op hop
  simp at hop
  rcases hop with rfl | rfl
  · exact trivial
  · intro w0
    refine ⟨by simp [Op.allowed], ?_⟩
    rintro x f g ⟨-, h, -⟩
    simp [strdecode, lit] at h

/-- C43, negative part: with two POS tokenizers on one tokenizer, the one that cuts first takes the tag away from the other. -/
theorem C43_second_tokenizer_misses_tag :
    let p := runPOps samplePSys samplePWorld [.op (.addWord 0 (.str (lit ['北', '京', '城'])) (.int 90) (some (lit ['z', 'z'])) true)]
    (samplePWorld.pos 0).tok = 0 ∧ (samplePWorld.pos 1).tok = 0 ∧
    (cutPW samplePSys p 0 false (.str (lit ['北', '京', '城'])) true).2 = Gen.ok [(lit ['北', '京', '城'], lit ['z', 'z'])] ∧
    (cutPW samplePSys (cutPW samplePSys p 0 false (.str (lit ['北', '京', '城'])) true).1 1 false (.str (lit ['北', '京', '城'])) true).2 =
      Gen.ok [(lit ['北', '京', '城'], lit ['x'])] := by
  decide +kernel

/-! ## C60 -/

/-- The tag on the last line for `v`. -/
def lastTag (es : List (Option (Str × Str))) (v : Str) : Option Str :=
  ((es.filterMap id).reverse.find? (fun e => e.1 == v)).map Prod.snd

theorem loadTagsLoop_ok (ls : List Bytes) (es : List (Option (Str × Str))) (h : ls.map tagLine = es.map some)
    (d : PyDict Str Str) : (loadTagsLoop ls d).2 = .ok () ∧
      ∀ v, (loadTagsLoop ls d).1.get? v = match lastTag es v with
        | some g => some g
        | none => d.get? v := by
  induction ls generalizing es d with
  | nil =>
    cases es with
    | nil => exact ⟨rfl, fun v => rfl⟩
    | cons e es => simp at h
  | cons l ls ih =>
    cases es with
    | nil => simp at h
    | cons e es =>
      simp only [List.map_cons, List.cons.injEq] at h
      unfold loadTagsLoop
      rw [h.1]
      cases e with
      | none =>
        simp only []
        exact ih es h.2 d
      | some e =>
        obtain ⟨w, g⟩ := e
        simp only []
        obtain ⟨h1, h2⟩ := ih es h.2 (d.set w g)
        refine ⟨h1, fun v => ?_⟩
        rw [h2 v]
        have hc : lastTag (some (w, g) :: es) v = match lastTag es v with
            | some g => some g
            | none => if w = v then some g else none := by
          unfold lastTag
          have : (some (w, g) :: es).filterMap id = (w, g) :: es.filterMap id := rfl
          rw [this, List.reverse_cons, List.find?_append]
          cases (es.filterMap id).reverse.find? (fun e => e.1 == v) with
          | some x => rfl
          | none =>
            by_cases hv : w = v
            · subst hv; simp
            · simp [hv]
        rw [hc]
        cases lastTag es v with
        | some x => rfl
        | none =>
          simp only []
          rw [PyDict.get?_set]
          by_cases hv : w = v
          · subst hv; simp
          · have : ¬ v = w := fun h => hv h.symm
            simp [hv]

theorem loadTagsLoop_err (ls : List Bytes) (d : PyDict Str Str) (l : Bytes) (hl : l ∈ ls) (h : tagLine l = none) :
    (loadTagsLoop ls d).2 = .error .valueError := by
  induction ls generalizing d with
  | nil => simp at hl
  | cons l' ls ih =>
    unfold loadTagsLoop
    rcases List.mem_cons.mp hl with rfl | hl
    · rw [h]
    · split
      · rfl
      · exact ih _ hl
      · exact ih _ hl

theorem loadTags_cases (data : Bytes) :
    (∃ es, (fileLines data).map tagLine = es.map some ∧ (loadTags data).2 = .ok () ∧
      ∀ v, (loadTags data).1.get? v = lastTag es v) ∨
    ((∃ l ∈ fileLines data, tagLine l = none) ∧ (loadTags data).2 = .error .valueError) := by
  by_cases h : ∃ l ∈ fileLines data, tagLine l = none
  · right
    obtain ⟨l, h1, h2⟩ := h
    exact ⟨⟨l, h1, h2⟩, loadTagsLoop_err _ _ l h1 h2⟩
  · left
    have : ∃ es : List (Option (Str × Str)), (fileLines data).map tagLine = es.map some := by
      generalize fileLines data = ls at h
      induction ls with
      | nil => exact ⟨[], rfl⟩
      | cons l ls ih =>
        obtain ⟨es, hes⟩ := ih (fun ⟨x, hx, hx'⟩ => h ⟨x, List.mem_cons_of_mem _ hx, hx'⟩)
        cases hl : tagLine l with
        | none => exact absurd ⟨l, List.mem_cons_self, hl⟩ h
        | some e => exact ⟨e :: es, by simp [hl, hes]⟩
    obtain ⟨es, hes⟩ := this
    obtain ⟨h1, h2⟩ := loadTagsLoop_ok _ es hes []
    refine ⟨es, hes, h1, fun v => ?_⟩
    have h3 := h2 v
    change (loadTags data).1.get? v = _ at h3
    rw [h3]
    cases lastTag es v <;> rfl

/-- C60: either every line of the dictionary file is blank or has exactly three fields, and then the table maps each word to the
tag on its last line and nothing else; or the tags cannot be loaded (ValueError). -/
theorem C60_load_tags (data : Bytes) : ∃ ls, FileLines data ls ∧
    ((∃ es, List.Forall₂ (fun l e => match e with
        | none => Blank l
        | some (word, tag) => TagEntry l word tag) ls es ∧
      (loadTags data).2 = .ok () ∧ ∀ v, (loadTags data).1.get? v = lastTag es v) ∨
    ((∃ l ∈ ls, ¬ Blank l ∧ ∀ word tag, ¬ TagEntry l word tag) ∧ (loadTags data).2 = .error .valueError)) := by
  refine ⟨fileLines data, fileLines_spec data, ?_⟩
  rcases loadTags_cases data with ⟨es, h1, h2⟩ | ⟨⟨l, h1, h2⟩, h3⟩
  · refine Or.inl ⟨es, ((map_some_iff _ _ _).mp h1).imp (fun l e h => ?_), h2⟩
    match e, h with
    | none, h => exact (tagLine_blank_iff l).mpr h
    | some (w, g), h => exact (tagEntry_iff l w g).mpr h
  · refine Or.inr ⟨⟨l, h1, fun h => ?_, fun w g h => ?_⟩, h3⟩
    · rw [(tagLine_blank_iff l).mp h] at h2; simp at h2
    · rw [(tagEntry_iff l w g).mp h] at h2; simp at h2

/-- `a 3 n` has a tag; `a 3` and `a 3 n x` are errors. -/
example : TagEntry [97, 32, 51, 32, 110, 10] [97] [110] ∧ (∀ w g, ¬ TagEntry [97, 32, 51, 10] w g) ∧
    ∀ w g, ¬ TagEntry [97, 32, 51, 32, 110, 32, 120, 10] w g := by
  refine ⟨(tagEntry_iff _ _ _).mpr (by decide +kernel), fun w g h => ?_, fun w g h => ?_⟩ <;>
  · have := (tagEntry_iff _ _ _).mp h
    simp [show tagLine [97, 32, 51, 10] = none by decide +kernel,
      show tagLine [97, 32, 51, 32, 110, 32, 120, 10] = none by decide +kernel] at this

/-- A tag that can be written into a dictionary file. -/
def WritableTag (g : Str) : Prop := g ≠ [] ∧ ∀ c ∈ g, c < 0x80 ∧ isByteSpace c = false

/-- The bytes of the dictionary file with lines `word freq tag`. -/
def taggedBytes : List (Str × Nat × Str) → Option Bytes
  | [] => some []
  | (w, n, g) :: es => match utf8Encode w, taggedBytes es with
    | some b, some bs => some (b ++ 0x20 :: decimal n ++ 0x20 :: g ++ [0x0A] ++ bs)
    | _, _ => none

theorem tagLine_render (w g : Str) (n : Nat) (b : Bytes) (hb : utf8Encode w = some b) (hw : Writable w) (hg : WritableTag g) :
    tagLine (b ++ 0x20 :: decimal n ++ 0x20 :: g ++ [0x0A]) = some (some (w, g)) := by
  obtain ⟨w1, w2, w3, w4⟩ := hw
  have hstrip : stripBy isByteSpace (b ++ 0x20 :: decimal n ++ 0x20 :: g ++ [0x0A]) = b ++ 0x20 :: decimal n ++ 0x20 :: g := by
    refine stripBy_append isByteSpace _ [0x0A] (by simp) ?_ ?_ (by simp [isByteSpace])
    · intro c hc
      have hbn := utf8Encode_ne_nil w b hb w1
      obtain ⟨y, b', rfl⟩ := List.exists_cons_of_ne_nil hbn
      simp at hc; subst hc
      by_cases hy : y < 0x80
      · exact w4 y (utf8Encode_head w _ hb y (by simp) hy)
      · simp [isByteSpace]; omega
    · intro c hc
      have h1 : b ++ 0x20 :: decimal n ++ 0x20 :: g = (b ++ 0x20 :: decimal n ++ [0x20]) ++ g := by simp
      rw [h1] at hc
      exact (hg.2 c (getLast?_mem_of_append _ _ _ hg.1 hc)).2
  unfold tagLine
  rw [hstrip]
  have henc : utf8Encode (w ++ 0x20 :: (decimal n ++ 0x20 :: g)) = some (b ++ 0x20 :: (decimal n ++ 0x20 :: g)) := by
    refine utf8Encode_append w _ b _ hb (utf8Encode_ascii _ ?_)
    intro c hc
    simp only [List.mem_cons, List.mem_append] at hc
    rcases hc with rfl | hc | rfl | hc
    · decide
    · exact digit_lt c (decimal_digits n c hc)
    · decide
    · exact (hg.2 c hc).1
  rw [show b ++ 0x20 :: decimal n ++ 0x20 :: g = b ++ 0x20 :: (decimal n ++ 0x20 :: g) by simp, utf8_decode_encode _ _ henc]
  have hsplit : splitOn1 0x20 (w ++ 0x20 :: (decimal n ++ 0x20 :: g)) = [w, decimal n, g] := by
    rw [splitOn1_cons _ _ _ w2, splitOn1_cons, splitOn1_none]
    · intro hm; have := (hg.2 _ hm).2; simp [isByteSpace] at this
    · intro hm
      have := decimal_digits n _ hm
      simp [isDigit] at this
  obtain ⟨c, w', rfl⟩ := List.exists_cons_of_ne_nil w1
  simp only [List.cons_append] at hsplit ⊢
  simp only [hsplit]

theorem fileLines_taggedBytes (es : List (Str × Nat × Str)) (data : Bytes) (hd : taggedBytes es = some data)
    (hw : ∀ e ∈ es, Writable e.1 ∧ WritableTag e.2.2) :
    (fileLines data).map tagLine = (es.map (fun e => some (e.1, e.2.2))).map some := by
  induction es generalizing data with
  | nil => simp [taggedBytes] at hd; subst hd; rfl
  | cons e es ih =>
    obtain ⟨w, n, g⟩ := e
    unfold taggedBytes at hd
    cases he : utf8Encode w with
    | none => rw [he] at hd; simp at hd
    | some x =>
      cases hb : taggedBytes es with
      | none => rw [he, hb] at hd; simp at hd
      | some b =>
        rw [he, hb] at hd; simp only [Option.some.injEq] at hd; subst hd
        obtain ⟨hw1, hg1⟩ := hw (w, n, g) (by simp)
        have hr := tagLine_render w g n x he hw1 hg1
        have h0 : 0x0A ∉ x ++ 0x20 :: decimal n ++ 0x20 :: g := by
          intro hm
          simp only [List.mem_append, List.mem_cons] at hm
          rcases hm with (hm | hm | hm) | hm | hm
          · exact hw1.2.2.1 (utf8Encode_mem w x he _ hm (by omega))
          · omega
          · have := decimal_digits n _ hm; simp [isDigit] at this
          · omega
          · have := (hg1.2 _ hm).2; simp [isByteSpace] at this
        rw [show x ++ 0x20 :: decimal n ++ 0x20 :: g ++ [0x0A] ++ b = (x ++ 0x20 :: decimal n ++ 0x20 :: g) ++ 0x0A :: b by simp,
          fileLines_line _ b h0]
        simp only [List.map_cons, hr]
        rw [ih b hb (fun e he => hw e (List.mem_cons_of_mem _ he))]

/-- C60, read back: from a file with lines `word freq tag` every word gets the tag of its last line, other words get none. -/
theorem C60_read_back (es : List (Str × Nat × Str)) (data : Bytes) (hd : taggedBytes es = some data)
    (hw : ∀ e ∈ es, Writable e.1 ∧ WritableTag e.2.2) :
    (loadTags data).2 = .ok () ∧
      ∀ v, (loadTags data).1.get? v = (es.reverse.find? (fun e => e.1 == v)).map (fun e => e.2.2) := by
  have h := fileLines_taggedBytes es data hd hw
  obtain ⟨h1, h2⟩ := loadTagsLoop_ok _ _ h []
  refine ⟨h1, fun v => ?_⟩
  have h3 := h2 v
  change (loadTags data).1.get? v = _ at h3
  rw [h3]
  have : lastTag (es.map (fun e => some (e.1, e.2.2))) v = (es.reverse.find? (fun e => e.1 == v)).map (fun e => e.2.2) := by
    unfold lastTag
    have hf : (es.map (fun e => some (e.1, e.2.2))).filterMap id = es.map (fun e => (e.1, e.2.2)) := by
      rw [List.filterMap_map]; simp
    rw [hf, ← List.map_reverse, List.find?_map, Option.map_map]
    rfl
  rw [this]
  cases (es.reverse.find? (fun e => e.1 == v)).map (fun e => e.2.2) <;> rfl

example : taggedBytes [(lit ['北', '京'], 40, lit ['n', 's']), (lit ['大', '学'], 32, lit ['n'])] = some taggedData ∧
    ∀ e ∈ [(lit ['北', '京'], 40, lit ['n', 's']), (lit ['大', '学'], 32, lit ['n'])], Writable e.1 ∧ WritableTag e.2.2 := by
  refine ⟨by decide +kernel, ?_⟩
  intro e he
  simp at he
  rcases he with rfl | rfl <;> simp [Writable, WritableTag, lit, isByteSpace]

/-- C60, negative part: a dictionary without tags is accepted by `Tokenizer` but not by `POSTokenizer`. -/
theorem C60_dictionary_without_tags :
    ∃ d, genPfdict sampleData = .ok d ∧ (loadTags sampleData).2 = .error .valueError := by
  exact ⟨([(lit ['北', '京'], 40), (lit ['北'], 0), (lit ['大', '学'], 32), (lit ['大'], 0)], 72), by decide +kernel, by decide +kernel⟩

example : (loadTags taggedData).1 = [(lit ['北', '京'], lit ['n', 's']), (lit ['大', '学'], lit ['n'])] := by decide +kernel

/-! ## C61 -/

/-- C61: `initialize(d)` of a POS tokenizer, if it returns, leaves exactly the tags of the tokenizer's dictionary file in the
table: tags of user words moved there before are gone. -/
theorem C61_initialize_replaces_tags (P : PSys F) (p : PWorld) (k : Nat) (d : Option Path) (io : Bool)
    (h : (initPos P p k d io).2 = .ok ()) :
    ∃ data, dictFile (initPos P p k d io).1.w ((initPos P p k d io).1.w.tok (p.pos k).tok).dictionary = .ok data ∧
      (initPos P p k d io).1.pos k = ⟨(p.pos k).tok, (loadTags data).1⟩ := by
  unfold initPos at h ⊢
  generalize initTok P.sys p.w (p.pos k).tok d io = r at h ⊢
  obtain ⟨w, r⟩ := r
  cases r with
  | error e => simp at h
  | ok u =>
    simp only [] at h ⊢
    cases hd : dictFile w (w.tok (p.pos k).tok).dictionary with
    | error e => rw [hd] at h; simp at h
    | ok data =>
      simp only []
      exact ⟨data, hd, setPos_self _ _ _⟩

/-- C61, negative part: `set_dictionary` on the tokenizer has no effect on the tags; a word of the new dictionary is tagged 'x',
although the dictionary gives it a tag.  File `/d` contains `大厦 3 zz`. -/
theorem C61_set_dictionary_keeps_old_tags :
    let q := runPOps samplePSys samplePWorld [.op (.write (lit ['/', 'd']) [229, 164, 167, 229, 142, 166, 32, 51, 32, 122, 122, 10]),
      .op (.setDictionary 0 (lit ['/', 'd']))]
    (cutPW samplePSys q 0 false (.str (lit ['大', '厦'])) true).2 = Gen.ok [(lit ['大', '厦'], lit ['x'])] ∧
    (cutPW samplePSys (runPOps samplePSys q [.init 0 none true]) 0 false (.str (lit ['大', '厦'])) true).2 =
      Gen.ok [(lit ['大', '厦'], lit ['z', 'z'])] := by
  decide +kernel

end Jieba.Props
