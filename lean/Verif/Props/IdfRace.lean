import Verif.Proofs.IdfRace
import Verif.Props.KeyCalls
import Verif.Props.Keywords
/-!
# C109: `set_idf_path` while keywords are extracted

`extractorOf w e` is extractor `e` as the sequential model `setIdfPath` has it.
-/

set_option linter.unusedSectionVars false

namespace Jieba.Props
open Jieba Jieba.Spec Jieba.Pos Jieba.Pos.Steps Jieba.Analyse Jieba.Analyse.Steps Jieba.PosData

section
variable {F : Type} [LinearOrder F] {R : RSys F} {N t : Nat} {w : KWorld F} {calls : List KCall} {i e : Nat} {path : Path}

theorem KReady.idfPool (h : KReady R N t w calls) (ho : OnlyIdf calls i e path) (io : Bool) (sched : List Nat) :
    IPool R t w calls i e (setIdfPath R.k w.p.w (extractorOf w e) path).1 (setIdfPath R.k w.p.w (extractorOf w e) path).2
      ((KPool.start R t io w calls).run sched) := by
  refine IPool.run h.inv sched ⟨h.pool io [], ⟨rfl, Or.inl rfl, Or.inl rfl⟩, ⟨w, ?_, Own.refl _⟩, fun j hj => ?_, fun j s topK ww allow wf hj => ⟨w, ?_, ?_⟩⟩
  · unfold KPool.start
    simp only [ho.1]
    refine EndsRG.bind (idfL_ends path rfl) ?_ ?_
    · rintro b u ⟨h1, h2⟩
      exact ⟨h1, h2⟩
    · rintro er u ⟨h1, h2⟩
      exact ⟨h1, h2⟩
  · unfold KPool.start
    cases hc : calls[j]? with
    | none => simp only [hc]; trivial
    | some c =>
      simp only [hc]
      exact leaves_prog R rfl io c (List.mem_of_getElem? hc) (fun path' hp => hj (ho.2 j path' (by rw [hc, hp])))
  · unfold KPool.start
    simp only [hj]
    refine EndsRG.bind (tagsL_ends h.tables h.order h.num.total s topK ww allow wf io (h.calls _ (List.mem_of_getElem? hj)) w h.inv) ?_ ?_
    · rintro b u ⟨l, h1, h2⟩
      cases h1
      exact ⟨_, rfl, h2⟩
    · rintro er u ⟨l, h1, h2⟩
      cases h1
  · exact ⟨Rel.refl h.inv, ⟨rfl, Or.inl rfl, Or.inl rfl⟩, fun _ => rfl⟩

/-- C109: if no other call changes the IDF table of the extractor, `set_idf_path` does exactly what it does alone: it returns if it returns
alone, raises what it raises alone, and leaves the extractor and its loader as it leaves them alone, then and later. -/
theorem C109_as_alone (h : KReady R N t w calls) (ho : OnlyIdf calls i e path) (io : Bool) (sched : List Nat) :
    (∀ r, ((KPool.start R t io w calls).run sched).th i = .ret r → (setIdfPath R.k w.p.w (extractorOf w e) path).2 = .ok () ∧
      Looks ((KPool.start R t io w calls).run sched).w e (setIdfPath R.k w.p.w (extractorOf w e) path).1) ∧
    (∀ er, ((KPool.start R t io w calls).run sched).th i = .raise er → (setIdfPath R.k w.p.w (extractorOf w e) path).2 = .error er ∧
      Looks ((KPool.start R t io w calls).run sched).w e (setIdfPath R.k w.p.w (extractorOf w e) path).1) := by
  obtain ⟨v, h1, h2⟩ := (h.idfPool ho io sched).mine
  constructor
  · intro r hr
    rw [hr] at h1
    exact ⟨h1.1.symm, Steps.Looks.own h1.2 h2⟩
  · intro er hr
    rw [hr] at h1
    exact ⟨h1.1.symm, Steps.Looks.own h1.2 h2⟩

/-- C109: such a call, if it keeps moving, returns if it returns alone, and raises what it raises alone. -/
theorem C109_ends (h : KReady R N t w calls) (ho : OnlyIdf calls i e path) (io : Bool) (σ : Nat → Nat) (hi : ∀ n, ∃ m, n ≤ m ∧ σ m = i) :
    ∃ n, match (setIdfPath R.k w.p.w (extractorOf w e) path).2 with
      | .ok () => ∃ r, ((KPool.start R t io w calls).run ((List.range n).map σ)).th i = .ret r
      | .error er => ((KPool.start R t io w calls).run ((List.range n).map σ)).th i = .raise er := by
  obtain ⟨m, -, h1⟩ := kends (fun n => (KPool.start R t io w calls).run ((List.range n).map σ)) σ
    (fun n => by simp [KPool.run, List.range_succ]) i hi 0
  refine ⟨m, ?_⟩
  rcases h1 with ⟨r, hr⟩ | ⟨er, hr⟩
  · rw [((C109_as_alone h ho io _).1 r hr).1]
    exact ⟨r, hr⟩
  · rw [((C109_as_alone h ho io _).2 er hr).1]
    exact hr

/-- C109: when such a call has returned, the entries of the file are in use, the last one of each word counting, with their median as
default, then and later. -/
theorem C109_table (h : KReady R N t w calls) (ho : OnlyIdf calls i e path) (hp : (w.tf e).path ≠ R.k.pos.sys.abspath path) (io : Bool)
    (sched : List Nat) (r : KResult F) (hr : ((KPool.start R t io w calls).run sched).th i = .ret r) :
    ∃ (f : File) (content : Str) (ls : List Str) (es : List (Str × F)), w.p.w.files (R.k.pos.sys.abspath path) = some f ∧
      utf8Encode content = some f.data ∧ TextLines content ls ∧ List.Forall₂ (fun l en => IdfEntry R.k l en.1 en.2) ls es ∧
      (∀ v, (((KPool.start R t io w calls).run sched).w.dicts (((KPool.start R t io w calls).run sched).w.tf e).idf).get? v = lastIdf es v) ∧
      IsMedian (((KPool.start R t io w calls).run sched).w.tf e).median
        (((KPool.start R t io w calls).run sched).w.dicts (((KPool.start R t io w calls).run sched).w.tf e).idf).values := by
  obtain ⟨h1, h2⟩ := (C109_as_alone h ho io sched).1 r hr
  rw [h2.idf, h2.median]
  exact C52_set_idf_path R.k w.p.w (extractorOf w e) path hp h1

/-- C109: at every moment the table in use is the old one or the complete new one, and the default is the old or the new median. -/
theorem C109_old_or_new (h : KReady R N t w calls) (ho : OnlyIdf calls i e path) (io : Bool) (sched : List Nat) :
    (((KPool.start R t io w calls).run sched).w.dicts (((KPool.start R t io w calls).run sched).w.tf e).idf = w.dicts (w.tf e).idf ∨
      ((KPool.start R t io w calls).run sched).w.dicts (((KPool.start R t io w calls).run sched).w.tf e).idf =
        (setIdfPath R.k w.p.w (extractorOf w e) path).1.idf) ∧
    ((((KPool.start R t io w calls).run sched).w.tf e).median = (w.tf e).median ∨
      (((KPool.start R t io w calls).run sched).w.tf e).median = (setIdfPath R.k w.p.w (extractorOf w e) path).1.median) := by
  have h1 := (h.idfPool ho io sched).old
  refine ⟨?_, h1.median⟩
  rcases h1.idf with h2 | h2
  · rw [h2]; exact Or.inl h1.d0
  · exact Or.inr h2

theorem forall₂_right {α β : Type _} {P : α → β → Prop} {l : List α} {m : List β} (h : List.Forall₂ P l m) : ∀ b ∈ m, ∃ a ∈ l, P a b := by
  induction h with
  | nil => simp
  | cons h _ ih =>
    intro b hb
    rcases List.mem_cons.mp hb with rfl | hb
    · exact ⟨_, by simp, h⟩
    · obtain ⟨a, ha, hab⟩ := ih b hb
      exact ⟨a, by simp [ha], hab⟩

/-- C109: `extract_tags` in the meantime: the weight of every keyword is its share of the accepted tokens times its idf in the old or the new
table, or the old or the new median if it is not there. -/
theorem C109_weights (h : KReady R N t w calls) (ho : OnlyIdf calls i e path) (io : Bool) (sched : List Nat) (j : Nat) (s : PyText)
    (topK : Option Int) (ww : Bool) (allow : List Str) (wf : Bool) (hc : calls[j]? = some (.tags e s topK ww allow wf)) (r : KResult F)
    (hr : ((KPool.start R t io w calls).run sched).th j = .ret r) :
    ∃ l cs ks, r = .keys l ∧ Candidates (strdecode R.k.pos.sys.gbk s) allow wf cs ∧ ks.Sublist cs ∧
      ∀ k u, (k, some u) ∈ l → ∃ x, IdfNow w e (setIdfPath R.k w.p.w (extractorOf w e) path).1.idf
          (setIdfPath R.k w.p.w (extractorOf w e) path).1.median k.text x ∧
        u = R.k.pos.sys.A.mul (ones R.k.pos.sys.A (ks.count k)) (R.k.pos.sys.A.div x
          ((countKeys R.k.pos.sys.A ks).values.foldl R.k.pos.sys.A.add R.k.pos.sys.A.zero)) := by
  obtain ⟨v, h1, -⟩ := (h.idfPool ho io sched).tags j s topK ww allow wf hc
  rw [hr] at h1
  obtain ⟨l, h2, cs, ks, d, tags, h3, h4, h5, h6, rfl⟩ := h1
  cases h2
  refine ⟨_, cs, ks, rfl, h3, h4.sub, fun k u hk => ?_⟩
  have hkeys : PyDict.keys d = (countKeys R.k.pos.sys.A ks).keys := by
    have := h5.imp (S := fun a b : Key × F => b.1 = a.1) (fun _ _ hab => hab.1)
    clear h5 h6 hk
    generalize countKeys R.k.pos.sys.A ks = c at this
    induction this with
    | nil => rfl
    | cons h _ ih =>
      simp only [PyDict.keys, List.map_cons] at ih ⊢
      rw [h, ih]
  have hd := (shape_facts d (hkeys ▸ countKeys_nodup _ ks) topK ww tags h6).2.2.2.2.2.2 k u hk
  obtain ⟨a, ha, hab⟩ := forall₂_right h5 _ hd
  obtain ⟨rfl, x, hx, hu⟩ := hab
  refine ⟨x, hx, ?_⟩
  rw [countKeys_eq] at ha
  obtain ⟨k', -, rfl⟩ := List.mem_map.mp ha
  exact hu

end

/-! ## What can go wrong -/

/-- The file "j" gives 上海 the idf 2 and 大学 the idf 9. -/
def idfFiles : World :=
  keyFiles.setFile (lit ['j']) (some ⟨[228, 184, 138, 230, 181, 183, 32, 50, 10, 229, 164, 167, 229, 173, 166, 32, 57, 10], 0⟩)

/-- As `keyWorld`: the idf of 北京 is 3, the median 5; the file "i" gives 北京 the idf 7. -/
def idfWorld : KWorld ℚ := { keyWorld with p := { keyWorld.p with w := idfFiles } }

/-- One file is read while keywords are extracted. -/
def oneIdf : List KCall := [.idf 0 (lit ['j']), .tags 0 rankedText none true [] false]

/-- Two files are read at the same time. -/
def twoIdf : List KCall := [.idf 0 (lit ['i']), .idf 0 (lit ['j'])]

/-- One file is read twice at the same time. -/
def sameIdf : List KCall := [.idf 0 (lit ['i']), .idf 0 (lit ['i'])]

theorem idf_ready (calls : List KCall) (h : ∀ c ∈ calls, (∃ path, c = .idf 0 path) ∨ c = .tags 0 rankedText none true [] false) :
    KReady keyRSys 1000 0 idfWorld calls := by
  refine ⟨ratArith_signOk, constTables_shipped _, fun _ _ _ => List.Perm.refl _, keyRSys_num, by decide +kernel,
    nonNeg_of_all _ (by decide +kernel), by decide +kernel, fun e => ?_, fun e e' he hne => ?_, fun c hc => ?_⟩
  · show min e 2 < 3 ∧ min e 2 < 3
    omega
  · have : e = 0 := by
      by_contra h1
      refine he (fun path hp => h1 ?_)
      rcases h _ hp with ⟨p, hp⟩ | hp
      · exact (KCall.idf.inj hp).1
      · cases hp
    show min e 2 ≠ min e' 2 ∧ min e 2 ≠ min e' 2
    omega
  · rcases h c hc with ⟨p, rfl⟩ | rfl
    · trivial
    · exact (by decide +kernel : (idfWorld.tf 0).tok = 0)

theorem oneIdf_ready : KReady keyRSys 1000 0 idfWorld oneIdf := idf_ready _ (by simp [oneIdf])

theorem twoIdf_ready : KReady keyRSys 1000 0 idfWorld twoIdf := idf_ready _ (by simp [twoIdf])

theorem sameIdf_ready : KReady keyRSys 1000 0 idfWorld sameIdf := idf_ready _ (by simp [sameIdf])

theorem oneIdf_only : OnlyIdf oneIdf 0 0 (lit ['j']) := by
  refine ⟨rfl, fun j path' h => ?_⟩
  match j with
  | 0 => rfl
  | 1 => simp [oneIdf] at h
  | j + 2 => simp [oneIdf] at h

/-- How a call has ended, if it has. -/
def howOf {F : Type} : Co (KWorld F) Yield (KResult F) → Option (Option PyErr)
  | .ret _ => some none
  | .raise e => some (some e)
  | _ => none

/-- Words, idf and default in use. -/
def inUse (p : KPool ℚ) : PyDict Str ℚ × ℚ := (p.w.dicts (p.w.tf 0).idf, (p.w.tf 0).median)

/-- Alone, the call returns with the table of the file in use. -/
example : (setIdfPath keyRSys.k idfWorld.p.w (extractorOf idfWorld 0) (lit ['j'])).2 = .ok () ∧
    inUse ((KPool.start keyRSys 0 true idfWorld oneIdf).run (List.replicate 14 0)) = ([(lit ['上', '海'], 2), (lit ['大', '学'], 9)], 9) := by
  decide +kernel

/-- C109: `extract_tags` may use the new table with the old median: the weight of 北京 is then 5/3; before the
call it is 1, after the call 3. -/
theorem C109_new_table_old_median :
    (∃ sched, keysOf (((KPool.start keyRSys 0 true idfWorld oneIdf).run sched).th 1) =
      some [(.word (lit ['大', '学']), some 6), (.word (lit ['北', '京']), some (5 / 3))]) ∧
    keysOf (((KPool.start keyRSys 0 true idfWorld oneIdf).run (List.replicate 80 1)).th 1) =
      some [(.word (lit ['大', '学']), some (10 / 3)), (.word (lit ['北', '京']), some 1)] ∧
    keysOf (((KPool.start keyRSys 0 true idfWorld oneIdf).run (List.replicate 20 0 ++ List.replicate 80 1)).th 1) =
      some [(.word (lit ['大', '学']), some 6), (.word (lit ['北', '京']), some 3)] :=
  ⟨⟨List.replicate 13 0 ++ List.replicate 80 1, by decide +kernel⟩, by decide +kernel, by decide +kernel⟩

/-- C109: two calls of `set_idf_path` of one extractor can make each other fail (IndexError), or both return and leave a mixture of the two
files in use, although one after the other each loads its file. -/
theorem C109_two_files :
    (∃ sched, howOf (((KPool.start keyRSys 0 true idfWorld twoIdf).run sched).th 0) = some (some .indexError)) ∧
    (∃ sched, howOf (((KPool.start keyRSys 0 true idfWorld twoIdf).run sched).th 0) = some none ∧
      howOf (((KPool.start keyRSys 0 true idfWorld twoIdf).run sched).th 1) = some none ∧
      inUse ((KPool.start keyRSys 0 true idfWorld twoIdf).run sched) =
        ([(lit ['上', '海'], 2), (lit ['大', '学'], 9), (lit ['北', '京'], 7)], 9)) ∧
    inUse ((KPool.start keyRSys 0 true idfWorld twoIdf).run (List.replicate 20 0)) = ([(lit ['北', '京'], 7)], 7) ∧
    inUse ((KPool.start keyRSys 0 true idfWorld twoIdf).run (List.replicate 20 0 ++ List.replicate 20 1)) =
      ([(lit ['上', '海'], 2), (lit ['大', '学'], 9)], 9) :=
  ⟨⟨List.replicate 6 0 ++ List.replicate 5 1 ++ List.replicate 20 0, by decide +kernel⟩,
    ⟨List.replicate 5 0 ++ List.replicate 12 1 ++ List.replicate 20 0 ++ List.replicate 20 1, by decide +kernel⟩, by decide +kernel, by decide +kernel⟩

/-- C109: if a file is loaded twice at the same time, one of the calls can return while nothing has been loaded; and both can return and
leave the old table in use. -/
theorem C109_same_file :
    (∃ sched, howOf (((KPool.start keyRSys 0 true idfWorld sameIdf).run sched).th 1) = some none ∧
      inUse ((KPool.start keyRSys 0 true idfWorld sameIdf).run sched) = ([(lit ['北', '京'], 3)], 5) ∧
      howOf (((KPool.start keyRSys 0 true idfWorld sameIdf).run sched).th 0) = none) ∧
    (∃ sched, howOf (((KPool.start keyRSys 0 true idfWorld sameIdf).run sched).th 0) = some none ∧
      howOf (((KPool.start keyRSys 0 true idfWorld sameIdf).run sched).th 1) = some none ∧
      inUse ((KPool.start keyRSys 0 true idfWorld sameIdf).run sched) = ([(lit ['北', '京'], 3)], 5)) :=
  ⟨⟨List.replicate 3 0 ++ List.replicate 20 1, by decide +kernel⟩,
    ⟨List.replicate 3 0 ++ List.replicate 4 1 ++ List.replicate 20 0 ++ List.replicate 20 1, by decide +kernel⟩⟩

end Jieba.Props
