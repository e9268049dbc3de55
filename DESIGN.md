# Formal model of fxsjy/jieba in Lean 4

The model mirrors the Python source in /repo (the pinned commit) function by function; every definition cites the file and lines
it models.  Properties are in `properties.jsonl` (C01, C02, …), what is proved about each is in `MANIFEST.json`, wrong programs the
theorems were tested against are in `seeded/LOG.jsonl`.  The project was never run: faithfulness of the model rests on reading.

## Shape of the model

* **Text** is a list of code points (`Str = List Nat`), so it covers every Python 3 `str` including lone surrogates.  Bytes are lists
  of naturals.
* **Python dicts** are insertion-ordered association lists (`PyDict`).
* **Regular expressions** are a small AST with Python's leftmost, prioritised backtracking semantics (`Model/Regex`).  Every
  pattern of the repo is transcribed as an AST, and `match` and `split` run on the engine.
* **Floats** are an arbitrary linearly ordered type `F` with operations `Arith F` about which nothing is assumed.  Structural
  theorems hold for every such arithmetic.  Optimality theorems assume only that addition is monotone (`MonoAdd`, true of IEEE
  double without NaN).  Theorems about numbers (C27, C28, C50, C53, C55, C69, C70, C74, C76, C79, C89, C93, C116, C118, C122, C123, C141, C144, parts of C114, C115, C125, C140 and C142) are for exact arithmetic (`Exact`, or the reals) and say so.
  C90, C91, C92, C95, C96, C98, C100 and `C101_best` are for doubles: `Model/Double` rounds every result to the nearest multiple of a power of two with 53 bits, ties to even. C102-C105 are for doubles with their limited exponents (`Model/Ieee`); C103, C104 and C105 bound the difference to exact arithmetic for `suggest_freq`, TextRank and TF-IDF.
* **Exceptions** are values (`Except PyErr`).  A generator that runs alone is "tokens yielded, then maybe an exception" (`Gen`); a
  generator that runs while others change the state is a resumable program (`Co`, `Model/Lazy`, `Model/PosLazy`, `Model/Calls`, `Model/PosCalls`, `Model/PosInit`).
* **Probability tables** are parameters, except where a theorem is about the shipped tables.  Those are generated from the files of the
  repository, keys and numbers (`Data/HmmTables`, `Data/PosTables`, `Data/PosEmit*`, `Data/PosNumbers`), and facts about them are checked
  by the kernel (`decide +kernel`).
* **State** is explicit.  `World`: all tokenizer objects, the force-split set, the file system, clocks (sequential operations).
  `PWorld`: plus POS tokenizers.  `Module`, `PModule`: plus the pool of workers.  `Threads`: a small-step machine where every access to
  shared state is a step and any schedule is allowed.
* **Outside behaviour** (io errors, what other processes write, results of a neural network) is an arbitrary parameter or an arbitrary
  step.

## Layout (`lean/Verif/`)

* `Model/*`  definitions that mirror the Python.
* `Spec/*`   small specifications used in theorem statements, independent of the model's helpers.
* `Proofs/*` lemmas.
* `Props/*`  property theorems `Cnn_…`, with a non-trivial example meeting the hypotheses beside each; `Props/Sample*` are example data.
* `Data/*`   tables generated from the source.

## What is modelled

| source | model | what is left out or simplified |
|--------|-------|--------------------------------|
| `jieba/__init__.py` 22 `_get_abs_path` | `Model/PathNames` (`join`, `normpath` of POSIX); a parameter `abspath` in `Model/World`, C138 puts the one in the other | symbolic links (the code does not look at them); `os.getcwd` is a parameter |
| 72-91 `gen_pfdict` | `Model/Dict`, `Model/World`, `Model/Messages` (with the message for malformed lines) | – |
| 93-171 `initialize`, `check_initialized` | `Model/World` (sequential), `Model/Threads` (interleaved), `Model/Logging` (with the log messages) | the seconds and the traceback in the log; `tempfile` names are parameters; `marshal` is a pair of functions with `load (dump x) = x`, arbitrary on other bytes (`Sys`) |
| 172-197 `calc`, `get_DAG` | `Model/Tokenizer`, `Model/Lazy`, `Model/Lookup` (called from outside), `Model/Route` (`calc` with any graph and any `route`) | – |
| 198-288 `__cut_all`, `__cut_DAG_NO_HMM`, `__cut_DAG` | `Model/Tokenizer`, `Model/Lazy` | – |
| 289-373 `cut`, `cut_for_search`, `lcut…` | `Model/Tokenizer`, `Model/World`, `Model/Lazy`, `Model/Paddle`, `Model/PaddleSetup` (`use_paddle`) | – |
| 374-417 `get_dict_file`, `load_userdict` | `Model/Dict`, `Model/World` | file objects: only the bytes or text lines read from them |
| 418-475 `add_word`, `del_word`, `suggest_freq` | `Model/World` (sequential), `Model/AddRace` (`add_word` interleaved with initialisation), `Model/Calls` (whole calls interleaved) | interleaved: reading `self.FREQ` and the operation on the dict are one step; `Model/AddRace`: the frequency is given; `Model/Calls`: `check_initialized` is one step |
| 476-508 `tokenize` | `Model/Tokenizer`, `Model/Lazy` | – |
| 509-517 `set_dictionary` | `Model/World`, `Model/Threads` | – |
| 518-619 module functions, parallel mode | `Model/Parallel`, `Model/Module`, `Model/PosModule` (workers that keep state; posseg), `Model/Lookup` (`get_FREQ`), `Model/Names` (`jieba.dt = t`) | start method `fork`; workers do not die; the number of processes |
| `jieba/_compat.py` 27-51 `enable_paddle`; `setLogLevel` there and in `jieba/__init__.py` 49-50 | `Model/PaddleSetup`, `Model/Logging` (the log messages) | the outcomes of `import` are parameters; levels given by name |
| `jieba/_compat.py` 76-82 `strdecode` | `Model/Codec` | GBK decoding with `errors='ignore'` is an uninterpreted function |
| `jieba/finalseg/__init__.py` | `Model/FinalSeg`, `Model/World` | tables are parameters (C95, C96: the shipped ones); the Jython `load_model` branch |
| `jieba/finalseg/prob_start.py`, `prob_trans.py`, `prob_emit.py` | `Data/HmmTables` (generated) | decimal numbers are rounded to doubles by `rnd` |
| `jieba/lac_small/word.dic`, `tag.dic` | `Data/LacTables` (generated) | the characters in the order of the file, the lines put together from them by `linesOf` |
| `jieba/posseg/__init__.py` | `Model/Posseg`, `Model/PosWorld`, `Model/PosLazy`, `Model/PosCalls`, `Model/PosInit`, `Model/PosModule`, `Model/Pair`, `Model/Repr` (`__repr__`), `Model/Attr` (`__getattr__`), `Model/Paddle`, `Model/PaddleSetup` | `__repr__` in Python 2, `pair.encode` with another codec than UTF-8; Jython |
| `jieba/posseg/prob_start.py`, `prob_trans.py`, `prob_emit.py`, `char_state_tab.py` | `Data/PosTables`, `Data/PosStart` (keys, and which start values are -3.14e100), `Data/PosEmit*`, `Data/PosNumbers` (numbers), `Data/PosMasks` (bit masks; checked against the others in `Proofs/PosMasks`), all generated | decimal numbers are rounded to doubles by `rnd` |
| `extra_dict/dict.txt.small` | `Data/DictSmall`, `Data/DictSmallIndex` (generated) | all 109750 lines; that the text of the model is the file was checked by a script, not by the kernel |
| `extra_dict/stop_words.txt` | `Data/StopWords` (generated) | – |
| `jieba/posseg/viterbi.py` | `Model/PosViterbi` | iteration order of sets is an arbitrary permutation |
| `jieba/analyse/tfidf.py` | `Model/Keywords`, `Model/KeyCalls` (interleaved), `Model/FloatText` (`float`) | `str.lower` and `float(str)` are parameters; C113 is for `float(str)` as in `Model/FloatText` |
| `jieba/analyse/textrank.py` | `Model/TextRank`, `Model/KeyCalls` (interleaved) | see the file header |
| `jieba/analyse/__init__.py` | `Model/Analyse` | the optional import of `ChineseAnalyzer` |
| `jieba/analyse/analyzer.py` 16-31 | `Model/Whoosh` | whoosh itself; `ChineseAnalyzer` (only composes whoosh filters) |
| `jieba/__main__.py` | `Model/Main`, `Model/Options` (the declared options, `parse_args` of CPython 3.11) | message texts, decoding of input, encoding of output |
| `jieba/lac_small/reader_small.py`, `predict.py` 51-81, `utils.py` 33-73 | `Model/Paddle`, `Model/LacSizes` | the network is an arbitrary function; numpy, paddle, int64 conversion |

Not modelled: `_compat.py` `resolve_filename` (a parameter in `Model/Messages`); `lac_small/nets.py`, `creator.py`; `utils.py`
`str2bool`, `parse_padding_result` (dead code), `init_checkpoint`; `setup.py`; the dictionary and idf files themselves (theorems hold
for any dictionary); Python 2 branches.

Assumptions of the model beyond the code: no NaN; floats do not overflow in posseg (see `Model/PosViterbi`);
exponents of doubles are unbounded in `Model/Double` (no overflow, no underflow) - C102 proves, with the bounded exponents of `Model/Ieee`, that this makes no
difference to segmentation, tagging, suggested frequencies and TextRank; in C90 `math.log` is wrong by at most 2^-52 of its result; `md5` appears as an
uninterpreted function, injective on the paths in use where a theorem says so; `rename` is atomic; ints are unbounded as in Python. `float(str)` of CPython (C113) is taken to round correctly; the sign of zero is left out.
Threads: `Model/Threads` has `initialize`, `check_initialized` and `set_dictionary`; `Model/AddRace` adds `add_word` and running generators; `Model/Calls` interleaves whole calls on an initialised tokenizer, `Model/PosCalls` those and `cut` of POS tokenizers (C106), also from the first use on, before the tokenizer is initialised (C107), `Model/PosInit` those and `initialize()` of POS tokenizers (C112), `Model/KeyCalls` those and the methods of the keyword extractors (C108, and C109 for a table of IDF values that is replaced meanwhile).
The theorems about `Model/Threads` (C33-C38, C62) are for executions without `add_word`; C72 and C73 say what `add_word` changes.

## Properties and modules

| property | title | theorems in |
|---|---|---|
| C01 | Accurate-mode segmentation is lossless | `Props/AnyState`, `Props/Segmentation` |
| C02 | Accurate mode never yields an empty token | `Props/Segmentation` |
| C03 | Where a no-HMM token can come from | `Props/Chars`, `Props/Segmentation` |
| C04 | The chosen segmentation has maximal probability | `Props/Segmentation` |
| C05 | Ties are broken towards the longest next word | `Props/Segmentation` |
| C06 | When segmentation raises | `Props/Segmentation` |
| C07 | HMM never touches multi-character dictionary words on the best path | `Props/Segmentation` |
| C08 | The HMM segmenter is lossless | `Props/Segmentation` |
| C09 | The HMM tag sequence is well-formed and optimal | `Props/Segmentation` |
| C10 | Full mode finds every dictionary word | `Props/FullMode` |
| C100 | The POS tagger loses its probabilities at characters it does not know | `Props/PosUnknown` |
| C101 | The small dictionary shipped with the project as a tokenizer sees it | `Props/DictSmall` |
| C102 | The limits of IEEE doubles are never reached in segmentation, tagging, frequency suggestion and TextRank | `Props/Ieee`, `Props/IeeeRank` |
| C103 | The value of suggest_freq with floats | `Props/SuggestFloat` |
| C104 | How exact the weights of TextRank are | `Props/RankAccuracy` |
| C105 | How exact the weights of TF-IDF are | `Props/TfidfFloat` |
| C106 | Tagging while words are added: whole calls at the same time | `Props/PosCalls` |
| C107 | The first use of a tokenizer by several threads at the same time | `Props/FirstUse`, `Props/PosCalls` |
| C108 | Extracting keywords in several threads | `Props/KeyCalls`, `Props/KeySolo` |
| C109 | set_idf_path while keywords are extracted | `Props/IdfRace` |
| C11 | Full-mode tokens, exactly | `Props/FullMode` |
| C110 | What the shipped tables of the POS tagger know | `Props/PosKnown` |
| C111 | Tagged words that the HMM of the POS tagger puts together | `Props/PosPossible` |
| C112 | Initialising a POS tokenizer while others tag | `Props/PosInit` |
| C113 | The numbers in IDF files | `Props/FloatText` |
| C114 | Saying it again: add_word and suggest_freq repeated | `Props/Again` |
| C115 | Places that no dictionary word crosses | `Props/Uncrossed`, `Props/UncrossedFull` |
| C116 | Taking back add_word and del_word | `Props/Undo` |
| C117 | The HMM only joins single characters | `Props/HmmJoins` |
| C118 | No bounded look-ahead | `Props/Lookahead` |
| C119 | Words that can never come out | `Props/Chars`, `Props/NeverWhole` |
| C12 | Search mode is an extension of accurate mode | `Props/Search` |
| C120 | Numbers and foreign words in segmentation | `Props/Numbers` |
| C121 | How long tokens can be | `Props/LongWords` |
| C122 | TF-IDF keywords of two texts together | `Props/JoinedTexts` |
| C123 | What the frequencies of a dictionary mean | `Props/Scaling` |
| C124 | Command line options | `Props/CommandOptions` |
| C125 | Loading the same user dictionary again | `Props/LoadAgain` |
| C126 | How much output there is | `Props/OutputSize` |
| C127 | Stop words that do nothing, and the list that is shipped | `Props/StopWords` |
| C128 | get_FREQ, get_DAG and calc called from outside | `Props/Lookup` |
| C129 | A user dictionary is an appendix of the dictionary | `Props/Appendix` |
| C13 | tokenize offsets are exact (default mode) | `Props/Search` |
| C130 | Attributes of POS tokenizers | `Props/Attributes` |
| C131 | Only the words that occur in a text matter | `Props/Factors` |
| C132 | Chinese characters mean nothing beyond the dictionary and the tables | `Props/Renaming` |
| C133 | With the HMM, cut and posseg.cut differ only in runs of single characters | `Props/PosAgree` |
| C134 | calc with a route that is not empty | `Props/Route` |
| C135 | What print shows of lists of words, pairs and tokenizers | `Props/Repr` |
| C136 | Text that has been segmented already | `Props/Joined` |
| C137 | The message for a malformed line of a dictionary | `Props/Messages` |
| C138 | Which file a relative path means | `Props/PathNames` |
| C139 | What the log says | `Props/Logging` |
| C14 | tokenize offsets are exact (search mode) | `Props/Search` |
| C140 | Raising the IDF of words | `Props/RaiseIdf` |
| C141 | More stop words, fewer tags | `Props/MoreStopWords` |
| C142 | Windows, stop words and tags of TextRank; texts with two keywords | `Props/RankSpan` |
| C143 | Assigning to jieba.dt | `Props/Names` |
| C144 | A word that occurs more often | `Props/MoreOccurrences` |
| C145 | The sizes of the network, and labels as numbers | `Props/LacSizes` |
| C146 | Texts that the network cannot tell apart | `Props/LacSame` |
| C15 | Segmentation is local between non-word characters | `Props/Repetition`, `Props/Segmentation` |
| C16 | Parallel accurate and search mode equal serial mode | `Props/Chars`, `Props/Parallel` |
| C17 | Parallel full mode equals serial full mode up to empty tokens | `Props/Parallel` |
| C18 | Parallel workers use the dictionary as of enable_parallel | `Props/ParallelHistory` |
| C19 | Byte input equals text input | `Props/Userdict` |
| C20 | Every prefix of a dictionary word is registered | `Props/Dictionary` |
| C21 | get_DAG lists exactly the dictionary words at each position | `Props/Dictionary` |
| C22 | Bookkeeping of the total frequency | `Props/Dictionary`, `Props/Totals` |
| C23 | What loading a dictionary file produces | `Props/Chars`, `Props/UserFiles`, `Props/Userdict` |
| C24 | add_word behaves like a map update | `Props/Dictionary`, `Props/Userdict` |
| C25 | A deleted word is not output again | `Props/Dictionary` |
| C26 | Isolation between Tokenizer instances | `Props/Dictionary` |
| C27 | add_word without frequency makes the word come out whole | `Props/Suggest` |
| C28 | suggest_freq on a split, with tune=True, forces the split | `Props/Suggest` |
| C29 | suggest_freq without tune changes nothing | `Props/Dictionary`, `Props/WhenInit` |
| C30 | User dictionary lines parse as documented | `Props/Chars`, `Props/UserFiles`, `Props/Userdict` |
| C31 | load_userdict is a sequence of add_word calls | `Props/Dictionary`, `Props/UserFiles` |
| C32 | A failed dictionary load leaves the tokenizer uninitialised and the old cache intact | `Props/Cache` |
| C33 | A crash never leaves a truncated cache behind | `Props/Threads` |
| C34 | A custom-dictionary cache that gets used matches the dictionary | `Props/Cache`, `Props/ThreadRaces` |
| C35 | Initialisation result does not depend on cache presence | `Props/Cache` |
| C36 | Concurrent initialisation builds once and publishes a complete dictionary | `Props/Threads` |
| C37 | Concurrent initialisation cannot deadlock | `Props/Threads` |
| C38 | The cache of a dictionary only ever holds that dictionary | `Props/ThreadRaces`, `Props/Threads` |
| C39 | set_dictionary takes effect at the next use and drops user words | `Props/Cache` |
| C40 | POS segmentation is lossless | `Props/AnyState`, `Props/Posseg` |
| C41 | POS results do not depend on hash order | `Props/Posseg` |
| C42 | POS Viterbi never fails on the shipped tables | `Props/Posseg` |
| C43 | Tags of user words are used | `Props/PosWorld` |
| C44 | Punctuation and whitespace are always tagged x | `Props/Posseg` |
| C45 | Parallel POS tagging equals serial POS tagging | `Props/Posseg` |
| C46 | POS and plain segmentation agree without HMM | `Props/Chars`, `Props/Posseg` |
| C47 | Keyword extraction respects its filters | `Props/Keywords` |
| C48 | Keyword ranking: sorted, distinct, top-K is a prefix | `Props/Keywords`, `Props/TextRank` |
| C49 | withWeight only adds the weights | `Props/Keywords`, `Props/TextRank` |
| C50 | TF-IDF weights are the documented ones | `Props/Keywords` |
| C51 | Stop words only accumulate | `Props/Keywords` |
| C52 | IDF loading | `Props/Keywords` |
| C53 | TextRank weights are normalised | `Props/TextRank` |
| C54 | TextRank keywords pass the filter and co-occur | `Props/TextRank` |
| C55 | TextRank never divides by zero | `Props/TextRank` |
| C56 | Changing the dictionary while consuming a generator keeps segmentation lossless | `Props/Lazy` |
| C57 | Paddle result assembly is lossless | `Props/Paddle` |
| C58 | Command line: one output line per input line | `Props/CommandLine`, `Props/CommandLineExact` |
| C59 | Whoosh tokens carry exact positions | `Props/Whoosh` |
| C60 | What loading the tags of a dictionary file produces | `Props/PosWorld` |
| C61 | Which tags a POS tokenizer has after a change of dictionary | `Props/PosWorld` |
| C62 | initialize(d) loads d | `Props/ThreadRaces` |
| C63 | Who builds a dictionary at the same time | `Props/ThreadRaces` |
| C64 | Full mode and HMM-free cutting use one dictionary state per run of characters | `Props/Lazy` |
| C65 | Adding words concurrently never makes cut raise | `Props/Lazy` |
| C66 | Command line with tags | `Props/CommandLine`, `Props/CommandLineExact` |
| C67 | What use_paddle=True does to the text | `Props/Paddle`, `Props/PaddleTables` |
| C68 | The guard against empty text before the network | `Props/Paddle` |
| C69 | Tokens are stable under segmenting again | `Props/Stability` |
| C70 | Adding a word that does not occur in the text | `Props/Stability` |
| C71 | Deleting unused words, raising used ones | `Props/Stability` |
| C72 | Threads adding words at the same time | `Props/AddRace` |
| C73 | User words can get into the cache of a dictionary | `Props/AddRace` |
| C74 | What suggest_freq returns | `Props/SuggestValue` |
| C75 | The POS tagger chooses a best state sequence | `Props/PosBest` |
| C76 | The weights of TextRank | `Props/RankValues` |
| C77 | Which files initialisation reads and writes | `Props/CacheFile` |
| C78 | Accurate, search and full mode compared | `Props/Modes` |
| C79 | TF-IDF keywords depend on proportions only | `Props/Repetition` |
| C80 | The two extractors of jieba.analyse | `Props/Analyse` |
| C81 | The number of dictionary look-ups is linear in the length of the text | `Props/Cost`, `Props/PosCost` |
| C82 | posseg.cut loses no text whatever happens to dictionary and tags meanwhile | `Props/PosLazy` |
| C83 | Moving the tags of user words races with add_word | `Props/PosLazy` |
| C84 | The order of the lines of a dictionary | `Props/DictOrder` |
| C85 | Where a tag comes from | `Props/PosTags` |
| C86 | Pairs of word and tag as values | `Props/Pair` |
| C87 | What enable_paddle does | `Props/PaddleSetup` |
| C88 | The Whoosh tokenizer yields one object again and again | `Props/TokenObject` |
| C89 | TextRank depends on the links only | `Props/RankGraph` |
| C90 | With floats, the segmentation is best up to rounding | `Props/Doubles` |
| C91 | A character unknown to the HMM dissolves the words after it | `Props/Doubles` |
| C92 | TextRank is normalised also with floats | `Props/RankDoubles` |
| C93 | How far ten rounds of TextRank get | `Props/RankLimit` |
| C94 | The module-level functions in parallel mode | `Props/ParallelModule` |
| C95 | What the shipped HMM tables know | `Props/HmmShipped` |
| C96 | Words that the HMM puts together | `Props/HmmShipped` |
| C97 | The network mode with the tables that are shipped | `Props/LacShipped` |
| C98 | add_word without frequency keeps its promise with floats | `Props/SuggestDouble` |
| C99 | Whole calls at the same time: nothing raises, the table stays sound | `Props/Calls` |

Some properties are false as first stated.  Then the negation is proved with a concrete witness (`…_fails_…` and similar names), and
a restricted version is proved; `MANIFEST.json` says so in the note.

## Trusted base

* Lean's kernel (4.33.0) and the parts of Mathlib imported (checked by the kernel).
* Axioms: only `propext`, `Classical.choice`, `Quot.sound`.  `AXIOMS.md` lists the axioms of every theorem in the manifest.  No axioms
  of our own, no `sorry`, no `native_decide`, no `bv_decide`.
* The model is faithful to the source: the table above and the comments in `Model/*`.
* The specifications in `Spec/*` and the theorem statements say what the English statements say.
* `Data/*` was generated from the shipped table files by a text-processing script.
