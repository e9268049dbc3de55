import Verif.Proofs.KeySolo
import Verif.Props.KeyCalls
/-!
# C108: alone, the calls do what the sequential model says

In any state, whether the tokenizer is initialised or not: if only call `i` moves, it ends as the functions `extractTags`, `textrank` and
`setStopWords` of the sequential model say, about which C47-C55 are proved.
-/

set_option linter.unusedSectionVars false

namespace Jieba.Props
open Jieba Jieba.Spec Jieba.Pos Jieba.Pos.Steps Jieba.Analyse Jieba.Analyse.Steps

variable {F : Type} [LinearOrder F] (R : RSys F) (t : Nat) (io : Bool) (w : KWorld F) (calls : List KCall) (i : Nat)

/-- C108: `extract_tags` alone. -/
theorem C108_extract_tags_alone (e : Nat) (s : PyText) (topK : Option Int) (ww : Bool) (allow : List Str) (wf : Bool)
    (hc : calls[i]? = some (.tags e s topK ww allow wf)) :
    ∃ n, ∀ m, n ≤ m →
      ((KPool.start R t io w calls).run (List.replicate m i)).w = { w with p := (extractTags R.k w.p (extractorOf w e) s topK ww allow wf io).1 } ∧
      (∀ l, (extractTags R.k w.p (extractorOf w e) s topK ww allow wf io).2 = .ok l →
        ((KPool.start R t io w calls).run (List.replicate m i)).th i = .ret (.keys l)) ∧
      (∀ er, (extractTags R.k w.p (extractorOf w e) s topK ww allow wf io).2 = .error er →
        ((KPool.start R t io w calls).run (List.replicate m i)).th i = .raise er) :=
  alone_run (tagsL R.k e s topK ww allow wf io) KResult.keys _ _ i (KPool.start R t io w calls) (by unfold KPool.start; simp only [hc]; rfl)
    (tagsL_alone R.k w e s topK ww allow wf io)

/-- C108: `textrank` alone; besides, the filter stays in the extractor. -/
theorem C108_textrank_alone (e : Nat) (s : PyText) (topK : Option Int) (ww : Bool) (allow : List Str) (wf : Bool)
    (hc : calls[i]? = some (.rank e s topK ww allow wf)) :
    ∃ n, ∀ m, n ≤ m →
      ((KPool.start R t io w calls).run (List.replicate m i)).w = { w.setRk e { w.rk e with filt := allow } with
        p := (textrank R w.p ⟨(w.rk e).pos, (w.rk e).stop, (w.rk e).span⟩ s topK ww allow wf io).1 } ∧
      (∀ l, (textrank R w.p ⟨(w.rk e).pos, (w.rk e).stop, (w.rk e).span⟩ s topK ww allow wf io).2 = .ok l →
        ((KPool.start R t io w calls).run (List.replicate m i)).th i = .ret (.keys l)) ∧
      (∀ er, (textrank R w.p ⟨(w.rk e).pos, (w.rk e).stop, (w.rk e).span⟩ s topK ww allow wf io).2 = .error er →
        ((KPool.start R t io w calls).run (List.replicate m i)).th i = .raise er) :=
  alone_run (rankL R e s topK ww allow wf io) KResult.keys _ _ i (KPool.start R t io w calls) (by unfold KPool.start; simp only [hc]; rfl)
    (rankL_alone w R e s topK ww allow wf io)

/-- C108: `set_stop_words` alone. -/
theorem C108_stop_words_alone (x : Extractor) (path : Path) (hc : calls[i]? = some (.stop x path)) :
    ∃ n, ∀ m, n ≤ m →
      stopsOf ((KPool.start R t io w calls).run (List.replicate m i)).w x = (setStopWords R.k w.p.w (stopsOf w x) path).1 ∧
      (∀ u, (setStopWords R.k w.p.w (stopsOf w x) path).2 = .ok u →
        ((KPool.start R t io w calls).run (List.replicate m i)).th i = .ret .none) ∧
      (∀ er, (setStopWords R.k w.p.w (stopsOf w x) path).2 = .error er →
        ((KPool.start R t io w calls).run (List.replicate m i)).th i = .raise er) := by
  obtain ⟨n, hn⟩ := alone_run (stopL R.k x path) (fun _ => KResult.none) _ _ i (KPool.start R t io w calls)
    (by unfold KPool.start; simp only [hc]; rfl) (stopL_alone R.k w x path)
  refine ⟨n, fun m hm => ⟨?_, (hn m hm).2⟩⟩
  rw [(hn m hm).1]
  cases x <;> simp [withStops, stopsOf, KWorld.setTf, KWorld.setRk]

end Jieba.Props
