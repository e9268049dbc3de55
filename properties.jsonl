{"id": "C01", "title": "Accurate-mode segmentation is lossless", "statement": "For every text, joining the tokens produced by cut(text, cut_all=False, HMM=True or False) gives back the text exactly; if the generator raises part-way, the tokens already yielded join to a prefix of the text.", "quantifier": "every unicode text, every dictionary contents (any frequencies), every HMM table, both HMM settings", "why_tests_cant": "The input space and the dictionary space are unbounded; the HMM/Viterbi path and the regex block splitter interact in ways a sample cannot cover.", "anchors": ["jieba/__init__.py:Tokenizer.cut", "jieba/__init__.py:Tokenizer.__cut_DAG", "jieba/__init__.py:Tokenizer.__cut_DAG_NO_HMM", "jieba/finalseg/__init__.py:cut"]}
{"id": "C02", "title": "Accurate mode never yields an empty token", "statement": "No token yielded by cut(text, cut_all=False) is the empty string. (Full mode does not have this property: cut(' ', cut_all=True) yields empty strings.)", "quantifier": "every text, dictionary, HMM table and HMM flag", "why_tests_cant": "Needs all block/split shapes, including empty regex split fragments.", "anchors": ["jieba/__init__.py:Tokenizer.cut"]}
{"id": "C03", "title": "Where a no-HMM token can come from", "statement": "Every token of cut(text, HMM=False) is one of: a word whose dictionary frequency is non-zero, a single character, the two-character string CR LF, or a run of ASCII letters/digits.", "quantifier": "every text and dictionary", "why_tests_cant": "Universal over texts and dictionaries.", "anchors": ["jieba/__init__.py:Tokenizer.__cut_DAG_NO_HMM", "jieba/__init__.py:Tokenizer.cut"]}
{"id": "C04", "title": "The chosen segmentation has maximal probability", "statement": "Among all ways of splitting a block of word characters into dictionary words (unknown positions count as single characters), the path chosen by cut has the maximal score sum(log(freq/total)); this holds for any arithmetic whose addition is monotone (so also IEEE doubles without NaN/overflow), and for exact arithmetic it means maximal product of freq/total.", "quantifier": "every block, every dictionary with positive total and non-negative frequencies, every competing segmentation", "why_tests_cant": "Number of competing segmentations is exponential and inputs unbounded.", "anchors": ["jieba/__init__.py:Tokenizer.calc", "jieba/__init__.py:Tokenizer.get_DAG"]}
{"id": "C05", "title": "Ties are broken towards the longest next word", "statement": "When several first words lead to equally scored best segmentations of the remaining text, the longest one is chosen, so the result is deterministic and independent of enumeration order.", "quantifier": "every block position and dictionary", "why_tests_cant": "Ties are measure-zero for tests but matter for determinism.", "anchors": ["jieba/__init__.py:Tokenizer.calc"]}
{"id": "C06", "title": "When segmentation raises", "statement": "With positive total frequency and no negative frequency, cut never raises for any text; a text containing at least one word character raises ValueError (math domain error) as soon as the total frequency is not positive.", "quantifier": "every text and every dictionary contents", "why_tests_cant": "Universal over dictionaries and texts; the failing configurations are corner states.", "anchors": ["jieba/__init__.py:Tokenizer.calc", "jieba/__init__.py:Tokenizer.cut"]}
{"id": "C07", "title": "HMM never touches multi-character dictionary words on the best path", "statement": "Every multi-character word on the best path is output as a token at the same offset by cut(HMM=True); HMM re-segmentation only happens inside maximal runs of single-character path words, never across a multi-character word.", "quantifier": "every block, dictionary and HMM table", "why_tests_cant": "Universal over HMM tables and texts.", "anchors": ["jieba/__init__.py:Tokenizer.__cut_DAG"]}
{"id": "C08", "title": "The HMM segmenter is lossless", "statement": "For every text, joining finalseg.cut(text) gives the text back with no empty tokens, whatever the probability tables and whatever words were force-split.", "quantifier": "every text, every start/transition/emission table, every force-split set", "why_tests_cant": "The Viterbi path depends on 35k-entry float tables; invalid tag sequences would silently drop or duplicate characters.", "anchors": ["jieba/finalseg/__init__.py:cut", "jieba/finalseg/__init__.py:__cut", "jieba/finalseg/__init__.py:viterbi"]}
{"id": "C09", "title": "The HMM tag sequence is well-formed and optimal", "statement": "The tag sequence chosen for a block has one tag per character, only uses the allowed predecessor pairs, ends in E or S, and no other such sequence has a larger score; with exact addition ties go to the larger letter at the last difference. The words of a block of Han characters are those that this tag sequence describes (a word from each B to the next E, and each S alone), words of the force-split set being cut into characters; between Han blocks the tokens are numbers, runs of letters and digits, and the texts between them.", "quantifier": "every non-empty block, every table, any arithmetic with monotone addition", "why_tests_cant": "Exponentially many competing tag sequences.", "anchors": ["jieba/finalseg/__init__.py:viterbi", "jieba/finalseg/__init__.py:__cut", "jieba/finalseg/__init__.py:cut"]}
{"id": "C10", "title": "Full mode finds every dictionary word", "statement": "On every text, cut(text, cut_all=True) yields every dictionary word of at least two word characters that does not begin with an ASCII letter or digit exactly as often as it occurs in the text; on a text without ASCII letters/digits this holds for all words. A word that begins with a letter can be merged with neighbouring letters, but it is always part of a token.", "quantifier": "every text, dictionary with prefix entries, every occurrence", "why_tests_cant": "Universal over texts and dictionaries; the failure needs a specific letter/dictionary interplay.", "anchors": ["jieba/__init__.py:Tokenizer.__cut_all"]}
{"id": "C11", "title": "Full-mode tokens, exactly", "statement": "On a run of word characters without ASCII letters/digits, full mode yields, ordered by offset and then by length, exactly the dictionary words of at least two characters and those single characters at which no such word starts and which no word from the last word start before them covers; between such runs it splits other characters at white space, keeping it. On every text each full-mode token is a concatenation of substrings of the text, which together cover every character; a token with several of them lies in a run of ASCII letters and digits. A maximal run of letters and digits that meets no dictionary word of two or more characters is one token. With ASCII words in the dictionary a token that does not occur in the text can be produced, and letters can be repeated.", "quantifier": "every text and dictionary with prefix entries", "why_tests_cant": "Failure needs specific dictionary contents; success claim is universal.", "anchors": ["jieba/__init__.py:Tokenizer.__cut_all"]}
{"id": "C12", "title": "Search mode is an extension of accurate mode", "statement": "cut_for_search(text) contains the tokens of cut(text) in order; every additional token is a 2- or 3-character dictionary word (non-zero frequency) occurring inside the accurate-mode token that follows it, and every such word is emitted.", "quantifier": "every text, dictionary, HMM setting", "why_tests_cant": "Universal quantification.", "anchors": ["jieba/__init__.py:Tokenizer.cut_for_search"]}
{"id": "C13", "title": "tokenize offsets are exact (default mode)", "statement": "tokenize(text) yields (w,start,end) where text[start:end]==w, the first start is 0, each start equals the previous end and the last end is len(text); the words are those of cut.", "quantifier": "every text, dictionary, HMM setting", "why_tests_cant": "Offsets depend on losslessness for all inputs.", "anchors": ["jieba/__init__.py:Tokenizer.tokenize"]}
{"id": "C14", "title": "tokenize offsets are exact (search mode)", "statement": "tokenize(text, mode='search') yields (w,start,end) with text[start:end]==w for every entry, and its word sequence equals cut_for_search(text). Before each token of the default mode come the dictionary words of two and then of three characters inside it, from left to right, each with the offsets of that occurrence.", "quantifier": "every text, dictionary, HMM setting", "why_tests_cant": "Universal.", "anchors": ["jieba/__init__.py:Tokenizer.tokenize", "jieba/__init__.py:Tokenizer.cut_for_search"]}
{"id": "C15", "title": "Segmentation is local between non-word characters", "statement": "For a non-word character c (not part of a CR LF pair), cut(a+c+b) = cut(a)+[c]+cut(b) in accurate mode: text on one side never influences tokens on the other side. The same holds for a CR LF pair, which is one token, and for posseg.cut, where the separator is tagged x (and % and - are separators too).", "quantifier": "all texts a, b, all separators c, all dictionaries", "why_tests_cant": "Universal over contexts.", "anchors": ["jieba/__init__.py:Tokenizer.cut", "jieba/posseg/__init__.py:POSTokenizer.__cut_internal"]}
{"id": "C16", "title": "Parallel accurate and search mode equal serial mode", "statement": "After enable_parallel (dictionary unchanged since), jieba.cut and jieba.cut_for_search (accurate, HMM on or off) give the same token list as without it.", "quantifier": "every text (every mix of line separators), dictionary, HMM flag", "why_tests_cant": "Line-splitting and block-splitting interplay must match for all separator combinations.", "anchors": ["jieba/__init__.py:_pcut", "jieba/__init__.py:_pcut_for_search"]}
{"id": "C17", "title": "Parallel full mode equals serial full mode up to empty tokens", "statement": "With cut_all=True the parallel result equals the serial result after dropping empty tokens; literal equality is false.", "quantifier": "every text and dictionary", "why_tests_cant": "Universal; the difference only shows around line breaks.", "anchors": ["jieba/__init__.py:_pcut"]}
{"id": "C18", "title": "Parallel workers use the dictionary as of enable_parallel", "statement": "Words added or deleted after enable_parallel do not affect parallel results until it is re-enabled, so after such a change parallel and serial results may differ.", "quantifier": "every history of add/del/enable/disable/cut", "why_tests_cant": "Depends on operation histories across processes.", "anchors": ["jieba/__init__.py:enable_parallel", "jieba/__init__.py:disable_parallel"]}
{"id": "C19", "title": "Byte input equals text input", "statement": "cut(text.encode('utf-8')) equals cut(text) for every text without lone surrogates; bytes that are not valid UTF-8 never make decoding raise.", "quantifier": "every text / byte string", "why_tests_cant": "All code points and byte strings.", "anchors": ["jieba/_compat.py:strdecode", "jieba/__init__.py:Tokenizer.cut"]}
{"id": "C20", "title": "Every prefix of a dictionary word is registered", "statement": "After any history of initialisation, add_word, del_word, load_userdict and suggest_freq, every non-empty prefix of every registered word is registered.", "quantifier": "all operation histories", "why_tests_cant": "Invariant over unbounded histories.", "anchors": ["jieba/__init__.py:Tokenizer.gen_pfdict", "jieba/__init__.py:Tokenizer.add_word"]}
{"id": "C21", "title": "get_DAG lists exactly the dictionary words at each position", "statement": "For a prefix-complete dictionary get_DAG(text)[k] lists, in increasing order, exactly the ends i such that text[k..i] has non-zero frequency, or just k when there is none.", "quantifier": "every text, position and prefix-complete dictionary", "why_tests_cant": "Universal.", "anchors": ["jieba/__init__.py:Tokenizer.get_DAG"]}
{"id": "C22", "title": "Bookkeeping of the total frequency", "statement": "The total equals the sum of the frequencies of all dictionary lines and all add_word calls so far; with non-negative frequencies it never falls below the sum of current frequencies. It is not always equal to that sum (re-adding or deleting a word does not give back the old frequency).", "quantifier": "all operation histories", "why_tests_cant": "Invariant over histories.", "anchors": ["jieba/__init__.py:Tokenizer.add_word", "jieba/__init__.py:Tokenizer.gen_pfdict"]}
{"id": "C23", "title": "What loading a dictionary file produces", "statement": "Loading a well-formed dictionary maps each listed word to the frequency on its last line, each other proper prefix of a listed word to 0, registers nothing else, and the total is the sum over all lines; the first malformed line makes loading fail with ValueError. (A byte order mark becomes part of the first word.)", "quantifier": "every dictionary file", "why_tests_cant": "All files.", "anchors": ["jieba/__init__.py:Tokenizer.gen_pfdict"]}
{"id": "C24", "title": "add_word behaves like a map update", "statement": "After add_word(w,f,tag) the frequency of w is f; the frequency of every other word that had a non-zero frequency is unchanged, and no other word gets a non-zero frequency. Entries are added for w and its prefixes only; w is added to the words that the HMM segmenter must split exactly if f = 0; a non-empty tag is recorded for w only; no other tokenizer, no file and no setting changes.", "quantifier": "every word, frequency and state", "why_tests_cant": "Universal over states.", "anchors": ["jieba/__init__.py:Tokenizer.add_word", "jieba/__init__.py:get_FREQ"]}
{"id": "C25", "title": "A deleted word is not output again", "statement": "After del_word(w) (w at least two characters, containing a Han character), no later cut of any text in accurate mode (HMM on or off) yields w, through any later operations that neither register w again with non-zero frequency nor reload the dictionary.", "quantifier": "all histories and texts", "why_tests_cant": "Histories and texts unbounded.", "anchors": ["jieba/__init__.py:Tokenizer.del_word", "jieba/finalseg/__init__.py:add_force_split"]}
{"id": "C26", "title": "Isolation between Tokenizer instances", "statement": "Operations on one Tokenizer never change cut(HMM=False) results of another. With HMM=True this is false: del_word on one instance changes what all instances output.", "quantifier": "all histories over several instances", "why_tests_cant": "Histories unbounded.", "anchors": ["jieba/__init__.py:Tokenizer.add_word", "jieba/finalseg/__init__.py:Force_Split_Words"]}
{"id": "C27", "title": "add_word without frequency makes the word come out whole", "statement": "After add_word(w), with w made of word characters and without ASCII letters/digits, cut(w) = [w] (exact arithmetic). For words with ASCII letters/digits this is false.", "quantifier": "every such word, every dictionary with non-negative frequencies bounded by a positive total", "why_tests_cant": "Numerical argument over all dictionaries.", "anchors": ["jieba/__init__.py:Tokenizer.suggest_freq", "jieba/__init__.py:Tokenizer.add_word"]}
{"id": "C28", "title": "suggest_freq on a split, with tune=True, forces the split", "statement": "After suggest_freq(segments, tune=True) the joined word is not output as one token. This is false in general; it holds when the computed frequency is 0.", "quantifier": "every segment list and dictionary", "why_tests_cant": "Numerical corner cases.", "anchors": ["jieba/__init__.py:Tokenizer.suggest_freq"]}
{"id": "C29", "title": "suggest_freq without tune changes nothing", "statement": "suggest_freq(x, tune=False) and all cut/tokenize/search calls leave an initialised tokenizer's frequencies, total and tags unchanged. On a tokenizer that is not initialised, cut, posseg.cut, extract_tags and textrank initialise it exactly when the text has a character that can belong to a word, and do nothing else to the state (posseg.cut moves the tags of added words first).", "quantifier": "every argument and state", "why_tests_cant": "Universal.", "anchors": ["jieba/__init__.py:Tokenizer.suggest_freq", "jieba/__init__.py:Tokenizer.cut"]}
{"id": "C30", "title": "User dictionary lines parse as documented", "statement": "A line 'word freq tag' or 'word freq' is parsed to exactly that word, frequency and tag, also when the word itself contains spaces; in general the word is the shortest beginning after which only a frequency and a tag can follow. A byte order mark at the start of the file is ignored.", "quantifier": "every word, digit string and lower-case tag", "why_tests_cant": "Non-greedy regex with two optional groups is ambiguous-looking; needs all words.", "anchors": ["jieba/__init__.py:re_userdict", "jieba/__init__.py:Tokenizer.load_userdict"]}
{"id": "C31", "title": "load_userdict is a sequence of add_word calls", "statement": "Loading a user dictionary has the effect of add_word for each non-blank line in order; if a line cannot be processed, exactly the lines before it have been applied. A line fails only if it is not UTF-8, has a line feed inside (impossible in a file), or add_word fails.", "quantifier": "every file, every failing line position", "why_tests_cant": "All files and failure points.", "anchors": ["jieba/__init__.py:Tokenizer.load_userdict"]}
{"id": "C32", "title": "A failed dictionary load leaves the tokenizer uninitialised and the old cache intact", "statement": "If the dictionary file is malformed, initialize raises, the tokenizer is not marked initialised, its previous frequencies stay in place and no cache file is written.", "quantifier": "every malformed file and prior state", "why_tests_cant": "All failure points.", "anchors": ["jieba/__init__.py:Tokenizer.initialize"]}
{"id": "C33", "title": "A crash never leaves a truncated cache behind", "statement": "Whatever the point at which the process dies during initialize, and with whatever other threads are doing, the cache file is either what it was before or a complete dump of a completely parsed dictionary.", "quantifier": "every crash point, every prior file system state", "why_tests_cant": "Crash points cannot be enumerated by unit tests.", "anchors": ["jieba/__init__.py:Tokenizer.initialize"]}
{"id": "C34", "title": "A custom-dictionary cache that gets used matches the dictionary", "statement": "If every file write gets a modification time not smaller than earlier ones and the dictionary is not modified while an initialize is running, initialize always ends with the frequencies of the current dictionary file, also when it loads from the cache. Without the second assumption this is false; for the default dictionary the modification time is not checked at all.", "quantifier": "all histories of dictionary edits, initialisations and cache removals", "why_tests_cant": "Histories unbounded.", "anchors": ["jieba/__init__.py:Tokenizer.initialize"]}
{"id": "C35", "title": "Initialisation result does not depend on cache presence", "statement": "With a coherent cache, initialising from cache and from the dictionary file give the same frequencies and total, hence the same tokens for every text; a corrupt cache is ignored.", "quantifier": "every file system state", "why_tests_cant": "All states.", "anchors": ["jieba/__init__.py:Tokenizer.initialize"]}
{"id": "C36", "title": "Concurrent initialisation builds once and publishes a complete dictionary", "statement": "When any number of threads call initialize() on one tokenizer, the dictionary is built at most once, and any thread returning (or seeing initialized) finds the complete frequency table and total.", "quantifier": "every number of threads and every interleaving", "why_tests_cant": "Schedules are unbounded.", "anchors": ["jieba/__init__.py:Tokenizer.initialize", "jieba/__init__.py:Tokenizer.check_initialized"]}
{"id": "C37", "title": "Concurrent initialisation cannot deadlock", "statement": "Any number of threads initialising any number of tokenizers (sharing dictionaries or not) always can make progress until all have returned.", "quantifier": "every interleaving, threads, tokenizers, paths", "why_tests_cant": "Schedules are unbounded.", "anchors": ["jieba/__init__.py:Tokenizer.initialize", "jieba/__init__.py:DICT_WRITING"]}
{"id": "C38", "title": "The cache of a dictionary only ever holds that dictionary", "statement": "Under any interleaving the cache file of a path holds the contents of that path's dictionary. This is false: two threads calling initialize(d1) and initialize(d2) on the same tokenizer can write d2's contents into d1's cache. It holds if each tokenizer keeps one dictionary path.", "quantifier": "every interleaving", "why_tests_cant": "Schedules are unbounded.", "anchors": ["jieba/__init__.py:Tokenizer.initialize"]}
{"id": "C39", "title": "set_dictionary takes effect at the next use and drops user words", "statement": "After set_dictionary(p) the next segmentation uses exactly the words in p; words added earlier are gone. A non-existing path raises and changes nothing.", "quantifier": "every prior history, every path", "why_tests_cant": "Histories unbounded.", "anchors": ["jieba/__init__.py:Tokenizer.set_dictionary"]}
{"id": "C40", "title": "POS segmentation is lossless", "statement": "Joining the words of posseg.cut(text, HMM) gives the text back, and no word is empty, with the shipped transition table.", "quantifier": "every text, dictionary, emission table, HMM flag", "why_tests_cant": "Depends on structural facts about a 5218-entry table combined with all texts.", "anchors": ["jieba/posseg/__init__.py:POSTokenizer", "jieba/posseg/viterbi.py:viterbi"]}
{"id": "C41", "title": "POS results do not depend on hash order", "statement": "The POS Viterbi result is the same for every iteration order of the intermediate sets (i.e. for every PYTHONHASHSEED).", "quantifier": "every permutation of every intermediate set", "why_tests_cant": "Hash seeds and permutations unbounded.", "anchors": ["jieba/posseg/viterbi.py:viterbi"]}
{"id": "C42", "title": "POS Viterbi never fails on the shipped tables", "statement": "With the shipped transition and character/state tables the POS Viterbi never takes the maximum of an empty sequence or looks up a missing key, for any non-empty text.", "quantifier": "every non-empty text", "why_tests_cant": "All texts times a large table.", "anchors": ["jieba/posseg/viterbi.py:viterbi", "jieba/posseg/prob_trans.py", "jieba/posseg/char_state_tab.py"]}
{"id": "C43", "title": "Tags of user words are used", "statement": "After add_word(w,f,tag), posseg.cut by the POSTokenizer on that tokenizer tags dictionary-cut occurrences of w with tag. With two POSTokenizers sharing a tokenizer this is false for the second one.", "quantifier": "all histories", "why_tests_cant": "Histories unbounded.", "anchors": ["jieba/posseg/__init__.py:POSTokenizer.makesure_userdict_loaded"]}
{"id": "C44", "title": "Punctuation and whitespace are always tagged x", "statement": "Every token of posseg.cut made from a character outside the word-character class has flag 'x' (the number/English branches there are unreachable).", "quantifier": "every text", "why_tests_cant": "Universal.", "anchors": ["jieba/posseg/__init__.py:POSTokenizer.__cut_internal"]}
{"id": "C45", "title": "Parallel POS tagging equals serial POS tagging", "statement": "posseg.cut with a pool gives the same pairs as without, dictionary unchanged.", "quantifier": "every text, HMM flag", "why_tests_cant": "Universal over texts.", "anchors": ["jieba/posseg/__init__.py:cut"]}
{"id": "C46", "title": "POS and plain segmentation agree without HMM", "statement": "For texts without '%' and '-', the words of posseg.cut(text, HMM=False) are those of cut(text, HMM=False).", "quantifier": "every such text, every dictionary", "why_tests_cant": "Two independent implementations must agree on all inputs.", "anchors": ["jieba/posseg/__init__.py:POSTokenizer.__cut_DAG_NO_HMM", "jieba/__init__.py:Tokenizer.__cut_DAG_NO_HMM"]}
{"id": "C47", "title": "Keyword extraction respects its filters", "statement": "Every keyword returned by extract_tags is a token of the text, has at least two non-blank-trimmed characters, its lower-case form is not a stop word and, with allowPOS, carries an allowed flag.", "quantifier": "every text, settings, stop-word set", "why_tests_cant": "Universal.", "anchors": ["jieba/analyse/tfidf.py:TFIDF.extract_tags"]}
{"id": "C48", "title": "Keyword ranking: sorted, distinct, top-K is a prefix", "statement": "Keywords are pairwise distinct and sorted by non-increasing weight with ties in order of first occurrence; topK=k returns the first k of the topK=None result; topK=0 behaves as None.", "quantifier": "every text, k", "why_tests_cant": "Universal.", "anchors": ["jieba/analyse/tfidf.py:TFIDF.extract_tags"]}
{"id": "C49", "title": "withWeight only adds the weights", "statement": "extract_tags(withWeight=False) is the first components of extract_tags(withWeight=True), for tfidf and textrank.", "quantifier": "every text, settings", "why_tests_cant": "Universal.", "anchors": ["jieba/analyse/tfidf.py:TFIDF.extract_tags", "jieba/analyse/textrank.py:TextRank.textrank"]}
{"id": "C50", "title": "TF-IDF weights are the documented ones", "statement": "The weight of each keyword is (number of its accepted occurrences) * (idf or median idf) / (number of accepted tokens), and every accepted token's word is in the topK=None result.", "quantifier": "every text, idf table", "why_tests_cant": "Universal.", "anchors": ["jieba/analyse/tfidf.py:TFIDF.extract_tags"]}
{"id": "C51", "title": "Stop words only accumulate", "statement": "set_stop_words only adds words, so previously filtered keywords stay filtered; a stop word containing an upper-case letter never filters anything.", "quantifier": "all histories of set_stop_words", "why_tests_cant": "Histories unbounded.", "anchors": ["jieba/analyse/tfidf.py:KeywordExtractor.set_stop_words"]}
{"id": "C52", "title": "IDF loading", "statement": "After a successful set_idf_path the idf table is exactly the file's and the default is its median. After a failed load, repeating the call silently succeeds without loading (so 'set_idf_path returned normally implies table matches file' is false).", "quantifier": "all files and histories", "why_tests_cant": "Histories and failure points.", "anchors": ["jieba/analyse/tfidf.py:IDFLoader.set_new_path"]}
{"id": "C53", "title": "TextRank weights are normalised", "statement": "Every TextRank weight is > 0 and <= 1 and the best keyword has weight exactly 1 (exact arithmetic).", "quantifier": "every text/graph", "why_tests_cant": "Iterated float computation over all graphs.", "anchors": ["jieba/analyse/textrank.py:UndirectWeightedGraph.rank"]}
{"id": "C54", "title": "TextRank keywords pass the filter and co-occur", "statement": "Every TextRank keyword is a word of the text with an allowed flag, two or more characters and not a stop word, which co-occurs within the window (fewer than span positions apart) with another accepted word; and every such word is returned with topK=None.", "quantifier": "every text", "why_tests_cant": "Universal.", "anchors": ["jieba/analyse/textrank.py:TextRank.textrank"]}
{"id": "C55", "title": "TextRank never divides by zero", "statement": "In exact arithmetic textrank() returns a result for every text that can be segmented, including texts without keywords: no division in it has a zero divisor and no lookup a missing key; the only exceptions it raises are those of the segmentation.", "quantifier": "every text/graph", "why_tests_cant": "Universal.", "anchors": ["jieba/analyse/textrank.py:UndirectWeightedGraph.rank"]}
{"id": "C56", "title": "Changing the dictionary while consuming a generator keeps segmentation lossless", "statement": "If the dictionary is changed arbitrarily between two next() calls on the generator returned by cut, the tokens still join to the text.", "quantifier": "every mutation history between yields", "why_tests_cant": "Interleavings of consumer and mutator.", "anchors": ["jieba/__init__.py:Tokenizer.cut"]}
{"id": "C57", "title": "Paddle result assembly is lossless", "statement": "parse_result returns as many tags as words, and the words join to the decoded characters, when every character decodes to a non-empty string.", "quantifier": "every tag sequence and text", "why_tests_cant": "Universal.", "anchors": ["jieba/lac_small/utils.py:parse_result"]}
{"id": "C58", "title": "Command line: one output line per input line", "statement": "python -m jieba prints one line per input line; deleting the delimiter recovers the line when the delimiter does not occur in it. In a fresh process with trustworthy caches the line consists of the tokens by the dictionary of the options (-D, -u), in the mode of the options (-a, -n).", "quantifier": "every input file", "why_tests_cant": "Universal.", "anchors": ["jieba/__main__.py"]}
{"id": "C59", "title": "Whoosh tokens carry exact positions", "statement": "Each token of ChineseTokenizer has text[startchar:endchar]==token text and either starts with a Han character or has at least two characters.", "quantifier": "every text", "why_tests_cant": "Universal.", "anchors": ["jieba/analyse/analyzer.py:ChineseTokenizer"]}
{"id": "C60", "title": "What loading the tags of a dictionary file produces", "statement": "load_word_tag succeeds exactly when every line is blank or has exactly three space-separated fields, and then maps each word to the tag on its last line and nothing else. A dictionary without tags, accepted by Tokenizer, makes POSTokenizer raise ValueError.", "quantifier": "every dictionary file", "why_tests_cant": "All files.", "anchors": ["jieba/posseg/__init__.py:POSTokenizer.load_word_tag"]}
{"id": "C61", "title": "Which tags a POS tokenizer has after a change of dictionary", "statement": "POSTokenizer.initialize, if it returns, leaves exactly the tags of the dictionary file, dropping tags of user words that were used before. set_dictionary on the tokenizer does not change the tags: words of the new dictionary are tagged 'x'.", "quantifier": "every state, every file", "why_tests_cant": "States and files unbounded.", "anchors": ["jieba/posseg/__init__.py:POSTokenizer.initialize", "jieba/__init__.py:Tokenizer.set_dictionary"]}
{"id": "C62", "title": "initialize(d) loads d", "statement": "initialize(d), not interrupted by other threads, behaves as in the sequential model (so a normal return leaves the tokenizer with the contents of d). With another thread inside initialize() on the same tokenizer this is false: initialize(d) can return normally with the tokenizer claiming to use d and to be initialised, but holding the words of its previous dictionary.", "quantifier": "every state for the first part, a concrete schedule for the second", "why_tests_cant": "Schedules are unbounded.", "anchors": ["jieba/__init__.py:Tokenizer.initialize"]}
{"id": "C63", "title": "Who builds a dictionary at the same time", "statement": "Two threads never build the dictionary of the same tokenizer at the same time. DICT_WRITING does not achieve the same for two tokenizers with the same dictionary: both can be building it at once (which C33 and C38 show to be harmless for the cache).", "quantifier": "every interleaving, a concrete schedule for the negative part", "why_tests_cant": "Schedules are unbounded.", "anchors": ["jieba/__init__.py:Tokenizer.initialize", "jieba/__init__.py:DICT_WRITING"]}
{"id": "C64", "title": "Full mode and HMM-free cutting use one dictionary state per run of characters", "statement": "Whatever the caller does to the process between the tokens of cut (full mode, or accurate mode without HMM), each maximal run of word characters and each run of other characters is cut as in a single state of the process; so for a text of word characters only, the changes have no effect. With the HMM this is false.", "quantifier": "every text, every change between yields", "why_tests_cant": "Interleavings of consumer and generator are unbounded.", "anchors": ["jieba/__init__.py:Tokenizer.cut", "jieba/__init__.py:Tokenizer.__cut_DAG_NO_HMM"]}
{"id": "C65", "title": "Adding words concurrently never makes cut raise", "statement": "If other threads or the consumer only add or delete words (add_word/del_word with non-negative frequencies) on an initialised tokenizer with positive total, cut raises nothing in any mode, and in accurate mode yields a segmentation of the text, at every interleaving. If another thread may replace the table (initialize with another dictionary), cut can raise KeyError.", "quantifier": "every interleaving", "why_tests_cant": "Schedules are unbounded.", "anchors": ["jieba/__init__.py:Tokenizer.cut", "jieba/__init__.py:Tokenizer.__cut_DAG", "jieba/__init__.py:Tokenizer.add_word"]}
{"id": "C66", "title": "Command line with tags", "statement": "python -m jieba -p prints, for each input line, word + separator + flag for the words of a segmentation of the line, joined by the delimiter. With -D the flags are still those of the default dictionary.", "quantifier": "every input file, options", "why_tests_cant": "Universal.", "anchors": ["jieba/__main__.py", "jieba/posseg/__init__.py:cut"]}
{"id": "C67", "title": "What use_paddle=True does to the text", "statement": "If the network labels every character and the tables of word.dic are inverse to each other (which holds if the file loads and ids are written canonically), the words of cut(text, use_paddle=True) join to the text without outer whitespace and with every character not in word.dic replaced by a space; posseg.cut gives the same words. In particular it is not lossless in general.", "quantifier": "every text, network, tables", "why_tests_cant": "Universal, with an arbitrary network.", "anchors": ["jieba/lac_small/utils.py:parse_result", "jieba/lac_small/reader_small.py:Dataset", "jieba/lac_small/predict.py:get_result", "jieba/__init__.py:Tokenizer.cut"]}
{"id": "C68", "title": "The guard against empty text before the network", "statement": "The guard is meant to keep empty sentences from the network. It does not: a text of whitespace only reaches the network as an empty list of ids, in cut and posseg.cut, and so does an empty bytes object in posseg.cut (but not in cut); if the network raises for empty input, so do they.", "quantifier": "every whitespace text, every network", "why_tests_cant": "Universal, with an arbitrary network.", "anchors": ["jieba/__init__.py:Tokenizer.cut", "jieba/posseg/__init__.py:cut", "jieba/lac_small/reader_small.py:Dataset.get_vars"]}
{"id": "C69", "title": "Tokens are stable under segmenting again", "statement": "In exact arithmetic and without HMM, every token of cut(text) is segmented as itself, for a prefix-closed dictionary without negative frequencies or frequencies above the total. With HMM this is false. More generally (any monotone arithmetic, positive total) the tokens from any token on are the segmentation of the rest of the text; the tokens up to a token need not be the segmentation of the beginning of the text.", "quantifier": "every text, every such dictionary; concrete dictionaries for the negative parts", "why_tests_cant": "Relates the run on a text to the runs on its tokens and on its rests, over all dictionaries.", "anchors": ["jieba/__init__.py:Tokenizer.cut", "jieba/__init__.py:Tokenizer.calc"]}
{"id": "C70", "title": "Adding a word that does not occur in the text", "statement": "After add_word(v,f), f >= 0, a text without ASCII letters and digits in which v does not occur is cut (without HMM, exact arithmetic) into at most as many tokens as before, and for f = 0 into the same tokens. The tokens themselves can change, because the total changes.", "quantifier": "every text, word, frequency, initialised state; a concrete dictionary for the negative part", "why_tests_cant": "Relates two runs over all dictionaries and texts.", "anchors": ["jieba/__init__.py:Tokenizer.add_word", "jieba/__init__.py:Tokenizer.cut", "jieba/__init__.py:Tokenizer.calc"]}
{"id": "C71", "title": "Deleting unused words, raising used ones", "statement": "del_word(v) for a word v that is not among the tokens of a run of word characters (no ASCII letters or digits, no HMM) leaves its segmentation unchanged, provided that wherever v occurs another dictionary word starts; without that proviso this is false. Raising the frequency of a word that is among the tokens can remove it from them.", "quantifier": "every text, word, initialised state, every monotone arithmetic; concrete dictionaries for the negative parts", "why_tests_cant": "Relates two runs over all dictionaries and texts.", "anchors": ["jieba/__init__.py:Tokenizer.del_word", "jieba/__init__.py:Tokenizer.add_word", "jieba/__init__.py:Tokenizer.calc", "jieba/__init__.py:Tokenizer.get_DAG"]}
{"id": "C72", "title": "Threads adding words at the same time", "statement": "Calls of add_word with given frequencies, interleaved arbitrarily on an initialised tokenizer: once all have returned, every prefix of a registered word is registered; a concurrent cut raises nothing and yields a segmentation (frequencies >= 0); a frequency is stored and stays if no other call concerns a word beginning with this word; an uninterrupted call does what the sequential model says. Otherwise a word can be lost (its frequency is overwritten by 0 by a thread adding a longer word), and an addition to total can be lost.", "quantifier": "every interleaving at the level of single accesses; concrete schedules for the negative parts", "why_tests_cant": "Schedules are unbounded.", "anchors": ["jieba/__init__.py:Tokenizer.add_word", "jieba/__init__.py:Tokenizer.cut"]}
{"id": "C73", "title": "User words can get into the cache of a dictionary", "statement": "If one thread is inside add_word while another runs initialize(d) on the same tokenizer, the added word can be written to the cache file of d, so that other tokenizers and later processes that use d get a word that is not in d.", "quantifier": "a concrete schedule", "why_tests_cant": "Schedules are unbounded.", "anchors": ["jieba/__init__.py:Tokenizer.initialize", "jieba/__init__.py:Tokenizer.add_word"]}
{"id": "C74", "title": "What suggest_freq returns", "statement": "With exact arithmetic, positive total and no negative frequency: suggest_freq(segments) for a tuple is the expected number total*prod(freq/total) rounded down, but not more than the present frequency of the joined word; suggest_freq(word) for a text is one more than the expected number for the tokens of cut(word, HMM=False), but not less than the present frequency of the word. Unregistered segments count with frequency 1, segments that are only beginnings of words with 0 (so the value is then 0). With tune=True the value becomes the frequency of the word, as with add_word(word, value). For the empty text the value is total+1.", "quantifier": "every tokenizer state after initialisation, every text and every tuple of segments", "why_tests_cant": "Universal over dictionaries, totals and segmentations; the value is a product of many factors.", "anchors": ["jieba/__init__.py:Tokenizer.suggest_freq", "jieba/__init__.py:Tokenizer.add_word"]}
{"id": "C75", "title": "The POS tagger chooses a best state sequence", "statement": "For every non-empty text the Viterbi algorithm of the POS tagger returns a state sequence (a position letter and a flag per character) that the tables allow, together with its score; no allowed sequence has a larger score, and with exact addition ties go to the sequence with the larger state at the last difference. The tagged words of a run of Han characters are those that the chosen sequence describes, with the flag of their last state; between Han runs numbers get the flag m, other words of letters and digits eng, and the rest x.", "quantifier": "every text, every table in the shape of the shipped ones, every iteration order of the sets, any arithmetic with monotone addition", "why_tests_cant": "Exponentially many competing state sequences, pruned by the tables.", "anchors": ["jieba/posseg/viterbi.py:viterbi", "jieba/posseg/__init__.py:POSTokenizer.__cut", "jieba/posseg/__init__.py:POSTokenizer.__cut_detail"]}
{"id": "C76", "title": "The weights of TextRank", "statement": "In exact arithmetic the weight of a TextRank keyword is determined by how often each two keywords occur fewer than span positions apart: starting with 1/(number of keywords), ten rounds set the value of each keyword, in the order of their words, to (1-d) + d * sum over all keywords v of (strength of the link to v) / (total strength of the links of v) * (latest value of v); the weight is (value - min/10) / (max - min/10). The strength counts both orders, and a keyword is linked to itself if it occurs twice.", "quantifier": "every text, settings, d in [0,1)", "why_tests_cant": "An iterated computation over arbitrary graphs; in-place updates make the result depend on the order of the words.", "anchors": ["jieba/analyse/textrank.py:UndirectWeightedGraph.rank", "jieba/analyse/textrank.py:UndirectWeightedGraph.addEdge", "jieba/analyse/textrank.py:TextRank.textrank"]}
{"id": "C77", "title": "Which files initialisation reads and writes", "statement": "The cache file of a dictionary lies in tmp_dir (or the temporary directory) under the name cache_file, or else jieba.cache for the dictionary of the package, or jieba.u<md5 of the path>.cache; an absolute cache_file is taken as it is. Initialising without a usable cache file there (absent, unloadable, not newer than the dictionary) writes exactly this file, or none if dumping fails; with a usable one the dictionary is what this file holds and no file changes. Whatever is called, no file changes that is not such a cache file.", "quantifier": "every state of files and tokenizers, every settings, every sequence of calls", "why_tests_cant": "Configurations and call sequences are unbounded; tests write to one temporary directory.", "anchors": ["jieba/__init__.py:Tokenizer.initialize", "jieba/__init__.py:Tokenizer.__init__"]}
{"id": "C78", "title": "Accurate, search and full mode compared", "statement": "A word of at least two word characters that does not begin with an ASCII letter or digit is yielded by accurate mode at most as often as by search mode, and, if it is a dictionary word or HMM is off, by search mode at most as often as by full mode. With a letter at the beginning this is false. add_word and del_word of one word do not change how often full mode yields another dictionary word of this kind.", "quantifier": "every text, prefix-closed dictionary, HMM flag, every initialised state; a concrete dictionary for the negative part", "why_tests_cant": "Relates runs of three functions on every text.", "anchors": ["jieba/__init__.py:Tokenizer.cut", "jieba/__init__.py:Tokenizer.cut_for_search", "jieba/__init__.py:Tokenizer.add_word"]}
{"id": "C79", "title": "TF-IDF keywords depend on proportions only", "statement": "In exact arithmetic the result of extract_tags is determined by the order in which the accepted words first occur and by the proportions in which they occur; in particular repeating a text any number of times with a separator character between the copies changes neither keywords nor weights.", "quantifier": "every text, separator, number of copies, topK, allowPOS and flags, every initialised state", "why_tests_cant": "Relates the runs on unboundedly many texts.", "anchors": ["jieba/analyse/tfidf.py:TFIDF.extract_tags"]}
{"id": "C80", "title": "The two extractors of jieba.analyse", "statement": "jieba.analyse.set_stop_words adds the lines of the file to the stop words of both extractors or, if the file is missing or not UTF-8, changes nothing; no sequence of calls of the module-level functions makes their stop words differ; after the import they are the 31 English words of the source. With the same allowPOS and withFlag every TextRank keyword is also a TF-IDF keyword (topK=None, exact arithmetic).", "quantifier": "every sequence of calls and file contents; every text and initialised state", "why_tests_cant": "Histories and texts are unbounded; relates two algorithms.", "anchors": ["jieba/analyse/__init__.py:set_stop_words", "jieba/analyse/tfidf.py:TFIDF.extract_tags", "jieba/analyse/textrank.py:TextRank.textrank"]}
{"id": "C81", "title": "The number of dictionary look-ups is linear in the length of the text", "statement": "If no entry of the dictionary has more than L characters, then segmenting a text of n characters makes at most n*(3L+6) accesses to the tables of the process (n*(3L+8) for cut_for_search and tokenize, n*(3L+8)+3 for POSTokenizer.cut): the search for words starting at a position stops at the first fragment that is no prefix of an entry, so its cost depends on the longest entry and not on the length of the text.", "quantifier": "all texts, dictionaries, modes, and interleavings with changes to the dictionary that keep its entries within L characters", "why_tests_cant": "Timing tests are noisy and sample a few lengths; a quadratic search gives the same tokens, so no functional test notices it.", "anchors": ["jieba/__init__.py:180-196", "jieba/__init__.py:172-178", "jieba/__init__.py:198-287", "jieba/__init__.py:338-354"]}
{"id": "C82", "title": "posseg.cut loses no text whatever happens to dictionary and tags meanwhile", "statement": "The generator of posseg.cut reads dictionary, total and tags again and again while it runs.  Whatever other threads or the caller do to tokenizers, dictionaries and tags between any two of these accesses, the words yielded are non-empty and join to a beginning of the text, and to the whole text if nothing is raised; undisturbed it yields what the sequential model of C40-C43 says.", "quantifier": "all texts, both modes, all states, all changes of the state between any two accesses", "why_tests_cant": "The interleavings are unbounded; tests exercise the generator undisturbed.", "anchors": ["jieba/posseg/__init__.py:112-115", "jieba/posseg/__init__.py:152-250"]}
{"id": "C83", "title": "Moving the tags of user words races with add_word", "statement": "makesure_userdict_loaded tests the pending tags, updates the table of the POS tokenizer with them and then replaces them by an empty dict.  While other threads add words with tags, the tag a word ends up with is the one given last, unless it was given between the update and the replacement; such a tag is lost (the word is in the dictionary and tagged x).", "quantifier": "all states with the POS tokenizer on that tokenizer, all lists of additions at each of the points between the accesses; the loss by a concrete run", "why_tests_cant": "Needs a thread switch between two particular lines.", "anchors": ["jieba/posseg/__init__.py:112-115", "jieba/__init__.py:420-437"]}
{"id": "C84", "title": "The order of the lines of a dictionary", "statement": "Two dictionary files with the same entries in different orders, every word on one line only, give the same total and answer every look-up alike, so every mode segments every text alike. Two user dictionaries with the same lines in different orders, each with a frequency and every word on one line only, leave states that answer every look-up of words and tags alike. Without frequencies, or with a word on two lines, the order matters.", "quantifier": "every file, every order of its lines, every initialised state, every text; concrete dictionaries for the negative parts", "why_tests_cant": "Relates two runs over all files and orders; prefixes are entered with frequency 0 in between, so that the order could easily matter.", "anchors": ["jieba/__init__.py:Tokenizer.gen_pfdict", "jieba/__init__.py:Tokenizer.load_userdict", "jieba/__init__.py:Tokenizer.add_word"]}
{"id": "C85", "title": "Where a tag comes from", "statement": "Every word that posseg.cut yields has its tag from the table of tags; or it has no tag there and gets x; or it is a number (m), a word of letters and digits (eng) or other text (x); or, only with HMM, it consists of Han characters and has the tag of a state of the HMM, which is one of 64 with the shipped tables.", "quantifier": "every text, dictionary, table of tags, every iteration order of sets", "why_tests_cant": "Universal over texts and tables.", "anchors": ["jieba/posseg/__init__.py:POSTokenizer.cut", "jieba/posseg/char_state_tab.py"]}
{"id": "C86", "title": "Pairs of word and tag as values", "statement": "The text word/flag of a pair determines the pair if flags have no slash; so what is printed for posseg.cut determines words and tags with the shipped tables and tags without slash (with a slash in a tag this is false). A pair equals exactly the pairs with the same word and flag, and no tuple; equal pairs have equal hashes. Pairs are ordered by the word only, so sorted(pairs) is a stable sort by word.", "quantifier": "all pairs, all texts and dictionaries, all lists of pairs", "why_tests_cant": "Universal.", "anchors": ["jieba/posseg/__init__.py:pair"]}
{"id": "C87", "title": "What enable_paddle does", "statement": "enable_paddle sets the flag iff paddle can be imported, maybe after pip install, its __version__ is not below '1.6.1' in the order of strings, and the network can be loaded. If paddle is still missing after pip install it raises UnboundLocalError although it logs that it goes back to the basic cut. A version below 1.6.1 is always turned down; a version from 1.6.1 on is turned down iff it is 1.b.c with b >= 10 and first digit of b below 6. As long as no call has set the flag, use_paddle=True has no effect on cut and posseg.cut, but makes posseg.lcut ignore HMM; afterwards only the network is used. In parallel mode jieba.cut with use_paddle raises TypeError.", "quantifier": "every outcome of the imports, every version a.b.c with any suffix, every sequence of calls, every state and text", "why_tests_cant": "The outcomes depend on the machine and on packages that tests do not install.", "anchors": ["jieba/_compat.py:enable_paddle", "jieba/__init__.py:Tokenizer.cut", "jieba/posseg/__init__.py:lcut", "jieba/__init__.py:_pcut"]}
{"id": "C88", "title": "The Whoosh tokenizer yields one object again and again", "statement": "A consumer that looks at each token of ChineseTokenizer when it gets it sees exactly the tokens of C59, whatever it does to the object and to the process meanwhile, but attributes it adds show up on all later tokens. In list(tokenizer(text)) all entries are the same object, with the content of the last token. Other objects are not touched.", "quantifier": "every text, state, every change of object and process between tokens", "why_tests_cant": "Universal; in-place filters and collecting consumers are unbounded in number.", "anchors": ["jieba/analyse/analyzer.py:ChineseTokenizer"]}
{"id": "C89", "title": "TextRank depends on the links only", "statement": "For plain words the keywords of TextRank and their weights depend only on the proportions of the link strengths between words (how often two words of allowed tags occur within the window): texts with proportional links give the same keywords and weights, up to the order of equal weights. So for a text of paragraphs with at least span - 1 separators between them neither the order of the paragraphs nor repeating all of them changes the result; with fewer separators it does.", "quantifier": "every text, dictionary, window, set of tags, every permutation and number of repetitions; exact arithmetic; one concrete text for the negative part", "why_tests_cant": "Relates two runs over all texts; ten iterations over a graph whose dictionary order differs between the runs.", "anchors": ["jieba/analyse/textrank.py:TextRank.textrank", "jieba/analyse/textrank.py:UndirectWeightedGraph.rank"]}
{"id": "C90", "title": "With floats, the segmentation is best up to rounding", "statement": "Computed with IEEE doubles and a logarithm correct to one unit in the last place, cut with HMM=False returns a segmentation of the n characters of a Han run whose probability is at least that of every other admissible segmentation divided by exp(2^-51 * log(N) * n(n+6)), where N bounds the total and all frequencies. If one segmentation is better than all others by more than that factor, it is returned.", "quantifier": "all dictionaries with positive total, all Han runs, all logarithms with relative error at most 2^-52", "why_tests_cant": "A test compares the result with itself or with a few hand-made segmentations; that accumulated rounding cannot make the search return a clearly worse segmentation needs the error bound.", "anchors": ["jieba/__init__.py:Tokenizer.calc", "jieba/__init__.py:Tokenizer.get_DAG"]}
{"id": "C91", "title": "A character unknown to the HMM dissolves the words after it", "statement": "With IEEE doubles and emission tables of ordinary size, in a run of Han characters cut by the HMM that contains a character absent from all four emission tables, every character from the one before the unknown one to the end becomes a single-character token: -3.14e100 absorbs all other scores, so all paths tie and ties go to S. With exact arithmetic the words would be others, so this is an effect of rounding.", "quantifier": "all tables with values up to 2^100, all runs whose characters are known in S or unknown in all states", "why_tests_cant": "Tests use known characters; 6319 Han characters are unknown to the shipped tables.", "anchors": ["jieba/finalseg/__init__.py:viterbi"]}
{"id": "C92", "title": "TextRank is normalised also with floats", "statement": "Computed with IEEE doubles, every operation rounded, TextRank gives every keyword a weight in (0, 1] and the best keyword the weight 1 exactly, it never divides by zero, and it raises only what the segmentation raises.", "quantifier": "all texts with up to 2^43 pairs of positions, all worlds, stop words, spans and allowed tags", "why_tests_cant": "Rounding after ten rounds of updates could make a weight zero, negative, or above one for some text; tests see a few texts.", "anchors": ["jieba/analyse/textrank.py:UndirectWeightedGraph.rank", "jieba/analyse/textrank.py:TextRank.textrank"]}
{"id": "C93", "title": "How far ten rounds of TextRank get", "statement": "In exact arithmetic the ranking equation X(n) = (1-d) + d * sum over v of (links of n and v / links of v) * X(v) has exactly one solution on the keywords of a text, and the values from which TextRank computes its weights differ from that solution by at most d^10 times the number of links of the keyword.", "quantifier": "all texts that can be segmented, all worlds, stop words, spans, allowed tags, 0 <= d < 1", "why_tests_cant": "The limit is not computed by the program; that ten rounds of in-place updates contract towards it needs a proof for every graph.", "anchors": ["jieba/analyse/textrank.py:UndirectWeightedGraph.rank"]}
{"id": "C94", "title": "The module-level functions in parallel mode", "statement": "After a successful enable_parallel and any changes of dictionaries, tags and files in the parent, and whatever the workers did before, jieba.cut, jieba.cut_for_search and jieba.posseg.cut have exactly the outcomes of parallel segmentation and tagging with the dictionary, the tags and the pending tags as of enable_parallel. jieba.lcut and jieba.lcut_for_search stay serial and use the current dictionary, so after a change they disagree with list(jieba.cut(...)). The parallel versions are bound exactly when there is a pool, so the three functions switch together and pool.map is never called on None.", "quantifier": "every history of operations, every assignment of lines to workers and every earlier work of the workers", "why_tests_cant": "Needs several processes, a change between enable_parallel and the call, and all schedules of the pool.", "anchors": ["jieba/__init__.py:enable_parallel", "jieba/__init__.py:disable_parallel", "jieba/__init__.py:_pcut", "jieba/__init__.py:_pcut_for_search", "jieba/posseg/__init__.py:cut"]}
{"id": "C95", "title": "What the shipped HMM tables know", "statement": "Of the 20950 Han characters (U+4E00 to U+9FD5) that finalseg passes on to the HMM, the shipped emission tables know exactly 14518 as words of their own, 6095 of them as nothing else; exactly 113 can be part of a word but not a word of their own; and exactly 6319, among them all from U+9FA6 on, do not occur at all. With these tables and doubles, a run of Han characters is cut into single characters from the character before the first unknown one on (C91 without assumptions on the tables).", "quantifier": "for all characters; for all runs of Han characters (up to 2^50 characters before the unknown one) whose other characters are unknown or known as words", "why_tests_cant": "needs all 35224 table entries against all code points, and all texts", "anchors": ["jieba/finalseg/prob_emit.py", "jieba/finalseg/prob_start.py", "jieba/finalseg/prob_trans.py", "jieba/finalseg/__init__.py:8", "jieba/finalseg/__init__.py:29-56"]}
{"id": "C96", "title": "Words that the HMM puts together", "statement": "With doubles and tables like the shipped ones: if the tables allow any tagging of a run of Han characters (first tag B or S, allowed transitions, an emission probability for every character with its tag), the words that finalseg makes of it are allowed too: the first character of a longer word has a B probability, inner ones M, the last one E. Hence every token of cut(HMM=True), on a text whose Han characters are all known as words, is a single character, a dictionary word, without Han characters, or such a word; and a character that is known as a word only (6095 characters) is never joined to others except in dictionary words.", "quantifier": "for all texts up to 2^50 characters, all dictionaries with prefixes, all tables of moderate values with complete transitions (the shipped ones are)", "why_tests_cant": "a MIN_FLOAT penalty competes with sums of any number of log-probabilities; no finite set of texts shows that it always wins", "anchors": ["jieba/finalseg/__init__.py:37-75", "jieba/finalseg/prob_emit.py", "jieba/__init__.py:249-289"]}
{"id": "C97", "title": "The network mode with the tables that are shipped", "statement": "With the word.dic and tag.dic that jieba ships, and whatever the network does: the files load; numbers and words of word.dic belong together one to one; unknown characters get the id 20940; the labels are those with the numbers 0 to 56. Known are all ASCII characters but NUL, U+0001, tab, line feed, carriage return and the space, and all but 1010 of the Han characters U+4E00 to U+9FD5; every unknown character, so every line end, comes out as a space. A result is a segmentation of the text without outer whitespace with these characters replaced. get_result raises only when the network raises or when it gives a label outside 0 to 56 (KeyError). posseg.cut with use_paddle gives only the 29 flags a, ad, an, c, d, f, m, n, nr, ns, nt, nw, nz, p, q, r, s, t, u, v, vd, vn, w, xc, PER, LOC, ORG, TIME and O.", "quantifier": "for all networks (functions from ids to labels), all texts, all characters", "why_tests_cant": "the tables have 20997 lines and the characters, texts and networks are unboundedly many; tests need the paddle package", "anchors": ["jieba/lac_small/word.dic", "jieba/lac_small/tag.dic", "jieba/lac_small/reader_small.py:24-98", "jieba/lac_small/utils.py:33-74", "jieba/lac_small/predict.py:51-82"]}
{"id": "C98", "title": "add_word without frequency keeps its promise with floats", "statement": "After add_word(v) without a frequency, cut(v) yields v as one token, with and without HMM, also when the suggested frequency and the scores of the paths are computed with floats (53 bits, rounding after every operation, a logarithm that is right up to one unit in the last place): for every prefix-closed dictionary without negative frequencies and with a positive total below 2^26 that is not below the sum of the frequencies, and every v of at most 900 word characters other than ASCII letters and digits.", "quantifier": "for all dictionaries, words, tags, tokenizers and logarithms meeting these conditions", "why_tests_cant": "the margin by which the new word wins can be as small as one part in 60 million, and how it compares with the rounding depends on the dictionary and the word", "anchors": ["jieba/__init__.py:172-178", "jieba/__init__.py:419-437", "jieba/__init__.py:445-474"]}
{"id": "C99", "title": "Whole calls at the same time: nothing raises, the table stays sound", "statement": "Let any number of calls of add_word (also without a frequency), del_word, suggest_freq, load_userdict, cut and cut_for_search be under way at the same time on one initialised tokenizer whose table has no negative frequency and a positive total; frequencies given are not negative and user dictionaries can be read. Whatever the interleaving of their accesses: no call raises; at every moment no frequency is negative, the total is positive and no word has left the table; when a call has returned, the words it registers are in the table, and suggest_freq has returned a number that is not negative, at least 1 for a word; when all calls have returned and the table was prefix-closed, it is prefix-closed again; what cut has yielded is a segmentation of a beginning of the text, of the whole text when it has ended; a call that is scheduled again and again returns. Calls are not atomic: a word added meanwhile can be used for one half of a text only.", "quantifier": "all tokenizers, all lists of calls, all interleavings of their accesses, all arithmetics that respect signs (doubles among them)", "why_tests_cant": "Tests run one call at a time; the interleavings of several threads inside add_word, suggest_freq, load_userdict and cut are unbounded in number and not reproducible.", "anchors": ["jieba/__init__.py:380-474", "jieba/__init__.py:300-344"]}
{"id": "C100", "title": "The POS tagger loses its probabilities at characters it does not know", "statement": "Let probabilities be IEEE doubles of ordinary size (absolute value at most 2^100, apart from the -3.14e100 for states that cannot begin a text), and let a run of at most 2^50 Han characters be tagged by the HMM of posseg. If a character of the run has no emission probability, the states given to it, to every character behind it and to the one before it do not depend on any probability: two sets of tables that have the same entries and differ only in the numbers give the same. With the tables shipped, a run of Han characters that the tables do not mention is cut into single characters that get the tags x and zg in turn, with a y in front if their number is odd; a single one gets yg. The same holds for posseg.cut on texts of two or more such characters in which no dictionary word of two or more characters occurs. With exact numbers the probabilities would decide about the unknown character and those behind it.", "quantifier": "all probabilities of that size, all tables of the shipped shape, all runs up to 2^50 characters, all iteration orders of sets", "why_tests_cant": "The tests tag ordinary texts and do not check tags; that adding -3.14e100 wipes out every other term is not visible in any single output.", "anchors": ["jieba/posseg/viterbi.py:14-53", "jieba/posseg/prob_start.py", "jieba/posseg/prob_trans.py", "jieba/posseg/char_state_tab.py", "jieba/posseg/__init__.py:116-133"]}
{"id": "C101", "title": "The small dictionary shipped with the project as a tokenizer sees it", "statement": "The file extra_dict/dict.txt.small has 109750 lines; each has a word of 1 to 15 Han characters, a frequency from 10 to 3188252 and a tag of 1 to 4 lower-case letters, and no word occurs twice. Loading it succeeds with total 62485586: each word is looked up to the frequency on its line, every other beginning of a word to 0, and nothing else is registered; the tags of the POS tagger are those of the lines. jieba.initialize with the path of the file succeeds in a fresh process whatever caches are there. With this dictionary cut never raises in any mode on any text, accurate mode loses nothing, a token without HMM is a word of the file, a single character, CR LF or made of ASCII letters and digits; the tables are read at most 51 times per character; with IEEE doubles no segmentation of a run of up to a million Han characters is more than one percent more probable than the one chosen; and the POS tagger with the shipped tables never raises, loses nothing and without HMM gives every word of the file the tag of its line.", "quantifier": "all texts, all flags, all states of the caches, every GoodLog logarithm; the dictionary is the file, line by line", "why_tests_cant": "The other properties hold for every dictionary under conditions (prefix-closed, non-negative frequencies, positive total, bounded length); this one shows for a dictionary that is really shipped that they are met and what follows for all texts.", "anchors": ["extra_dict/dict.txt.small", "jieba/__init__.py:74-92", "jieba/__init__.py:97-160", "jieba/posseg/__init__.py:97-117"]}
{"id": "C102", "title": "The limits of IEEE doubles are never reached in segmentation, tagging, frequency suggestion and TextRank", "statement": "Python floats have a smallest and a largest exponent: sums may overflow and products may underflow. For texts of up to 2^50 characters, frequencies and totals of up to 2^300, a logarithm of the C library that returns doubles with an error of at most one unit in the last place, and tables of doubles of size up to 2^350 (the shipped finalseg tables and MIN_FLOAT = -3.14e100 are such), cut, cut_for_search and tokenize in every mode and the POS tagger return the same with IEEE doubles as with doubles of unbounded exponent, whatever an overflowing operation would return. suggest_freq, whose product may well underflow, returns the same frequency when no frequency exceeds the total and the total is at most 2^53. So C90, C91, C95, C96, C98, C100 and C101 hold for IEEE doubles; the results for the small dictionary and for add_word are stated. TextRank, from the same tokens, computes the same keywords and weights for a damping factor between 1/8 and 7/8 (the code has 0.85) and up to 2^43 pairs of tokens, so C92 holds for IEEE doubles. With larger numbers in the tables the claim is false.", "quantifier": "all texts up to 2^50 characters, all dictionaries and tables within the bounds, all modes, every result of overflow, all iteration orders of sets", "why_tests_cant": "A test sees a few texts; whether some sum of a long text leaves the range of doubles is a question about all of them.", "anchors": ["jieba/__init__.py:172-180", "jieba/__init__.py:445-474", "jieba/finalseg/__init__.py:8", "jieba/finalseg/__init__.py:37-57", "jieba/posseg/viterbi.py:3", "jieba/posseg/viterbi.py:14-53", "jieba/analyse/textrank.py:24-54"]}
{"id": "C103", "title": "The value of suggest_freq with floats", "statement": "suggest_freq computes the expected number of occurrences of the segments with floating point divisions and multiplications and int(). With IEEE doubles and frequencies from 0 up to the total (at most 2^53), the number before int() differs from the exact one, total times the product of freq/total, by at most the fraction (4n+2)/2^53 for n segments; the result is int of that, limited by the present frequency of the joined word for a tuple, and one more than that (or the present frequency, if greater) for a word. With a total up to 2^40 and up to 1000 segments the number is off by at most one from the exact quotient rounded down. For two segments whose frequencies have a product below 2^53/10 it is exact, except that it may be one too low when the product is a multiple of the total (with total 15 and frequencies 9 and 5 it is 2 instead of 3); beyond that bound it can be one too high. With dict.txt.small it is exact for every two segments, and for segments with Han characters whose frequencies have a product below the total, after suggest_freq((a, b), tune=True) no call of cut in accurate mode outputs the joined word.", "quantifier": "all dictionaries with non-negative frequencies up to the total, all words and tuples of segments, all logarithms; dict.txt.small: all pairs of segments, all texts cut afterwards", "why_tests_cant": "The effect needs a product that is a multiple of the total or close to one, which tests with a few words do not hit, and int() turns a rounding error of 2^-52 into a difference of one.", "anchors": ["jieba/__init__.py:445-474"]}
{"id": "C104", "title": "How exact the weights of TextRank are", "statement": "With IEEE doubles, every weight textrank returns differs from the weight that the same formula gives with exact numbers (same damping factor, C76) by at most the fraction (800P+30)/2^53, where P = (span-1) * (number of tokens). Of two keywords, the one listed first has the greater exact weight, up to the fraction (2400P+90)/2^53.", "quantifier": "all texts with P up to 2^36, all dictionaries, stop words, spans, part of speech filters, options", "why_tests_cant": "tests compare with values computed by the same floating point code, they cannot see how far these are from the documented formula", "anchors": ["jieba/analyse/textrank.py:19-54", "jieba/analyse/textrank.py:69-108"]}
{"id": "C105", "title": "How exact the weights of TF-IDF are", "statement": "With IEEE doubles, extract_tags returns every accepted word, never divides by zero, and each weight differs from count * idf / total with exact numbers by at most the fraction 2^-51. Of two keywords, the one listed first has the greater exact weight, up to the fraction 2^-49. The order can really differ by that little: two words with different exact weights can get the same double and are then listed in order of appearance.", "quantifier": "all texts with up to 2^53 accepted tokens, all idf tables with values that are 0 or between 2^-100 and 2^100, all stop words, filters", "why_tests_cant": "tests compare with values computed by the same floating point code, they cannot see how far these are from the documented formula", "anchors": ["jieba/analyse/tfidf.py:75-116"]}
{"id": "C106", "title": "Tagging while words are added: whole calls at the same time", "statement": "Any number of calls are under way at the same time: add_word, del_word, suggest_freq, load_userdict, cut and cut_for_search of a tokenizer, and cut of POS tokenizers that belong to it. With the tables shipped, an initialised tokenizer and proper arguments, in every interleaving of their accesses: no call raises; each call that moves again and again returns; what a POS tokenizer has yielded at any moment are non-empty words that join to a beginning of the text, and to the whole text when the call has returned; each word has a tag that was known for this word at the beginning or that one of the calls gives to it, or x, m, eng, or (with HMM, words of Han characters) one of the 64 tags of the HMM; the words that a returned call registers are in the table, no word is lost, and when all have returned every prefix of a word is in the table. But a tag can be lost: there is an execution in which add_word and cut both return and the word added is tagged x from then on, although in either order of the two calls it keeps its tag.", "quantifier": "for all calls, arguments, states and interleavings", "why_tests_cant": "Tests run a handful of threads a few times; the interleaving that loses a tag needs a switch between two statements of makesure_userdict_loaded.", "anchors": ["jieba/posseg/__init__.py:112-250", "jieba/__init__.py:380-474"]}
{"id": "C107", "title": "The first use of a tokenizer by several threads at the same time", "statement": "Let any number of calls begin on a tokenizer that nobody has initialised yet: add_word, del_word, suggest_freq, load_userdict, cut and cut_for_search of the tokenizer and cut of POS tokenizers that belong to it, every access to the shared state in any order. If the dictionary file can be read, with frequencies that are not negative and not all zero, and the cache file, if it is used, holds the table of that dictionary file (there may be none, a damaged one or one that is too old), then: no call raises; every call that keeps moving returns, with the result it should have and its words in the table; at every moment either the tokenizer is untouched (but for the tags of user words) or it is fully loaded, with every word of the dictionary file, no negative frequency and a positive total; it is loaded only once, no word that was ever in the table is lost and no file changes afterwards; and when all calls have ended, every prefix of a word in the table is in the table.", "quantifier": "every state of the process with an uninitialised tokenizer, every list of calls, every interleaving of their accesses", "why_tests_cant": "A race between the first calls of several threads shows itself only in rare interleavings; tests make the first call from one thread.", "anchors": ["jieba/__init__.py:93-170", "jieba/__init__.py:180-183", "jieba/__init__.py:289-354", "jieba/__init__.py:380-474", "jieba/posseg/__init__.py:112-115", "jieba/posseg/__init__.py:152-250"]}
{"id": "C108", "title": "Extracting keywords in several threads", "statement": "Let any number of calls run at the same time on an initialised tokenizer and on keyword extractors that use it: extract_tags, textrank, set_stop_words, set_idf_path and the calls of C106, every access to the shared state in any order. No call raises, except perhaps set_idf_path, and every call that keeps moving returns. When set_stop_words has returned, all lines of its file are stop words, then and later, and no other stop words appear. extract_tags returns distinct tokens of one segmentation of the text, with allowed flags, by decreasing weight, none that was a stop word at the beginning, and with topK=None all that cannot have become stop words; if nobody changes the stop words and the IDF table of this extractor, it computes from its segmentation exactly what it computes alone. The same for textrank, with one exception: allowPOS is kept in the extractor, so a call may use the allowPOS of another call of the same extractor; if all calls allow the same flags, it computes from its segmentation exactly what it computes alone.", "quantifier": "every state of the process with an initialised tokenizer, every list of calls, every interleaving of their accesses", "why_tests_cant": "A server extracts keywords in many threads with one extractor; that a call of textrank takes the filter of another shows itself only in some interleavings.", "anchors": ["jieba/analyse/tfidf.py:23-33", "jieba/analyse/tfidf.py:44-116", "jieba/analyse/textrank.py:57-110", "jieba/analyse/__init__.py:1-20"]}
{"id": "C109", "title": "set_idf_path while keywords are extracted", "statement": "In the setting of C108, if only one of the calls is a set_idf_path of an extractor, it does what it does alone: it returns if it returns alone, raises what it raises alone, and when it has returned the entries of the file are in use, with their median as default, then and later. At every moment the table in use is the old one or the complete new one; extract_tags gives every keyword its share of the accepted tokens times its idf in the old or the new table, or the old or the new median - possibly the new table with the old median. Two calls of set_idf_path of one extractor at the same time are not safe: one can raise IndexError, both can return and leave a mixture of the two files in use, and with the same file one can return before anything is loaded, and both can return with the old table in use.", "quantifier": "every state of the process with an initialised tokenizer, every list of calls, every interleaving of their accesses", "why_tests_cant": "Which table a call of extract_tags uses depends on the interleaving; the faults need two reloads in a window of microseconds.", "anchors": ["jieba/analyse/tfidf.py:35-73", "jieba/analyse/tfidf.py:75-116"]}
{"id": "C110", "title": "What the shipped tables of the POS tagger know", "statement": "The tables in jieba/posseg, keys and numbers, are as the theorems about the Viterbi algorithm of the POS tagger assume (C42, C75, C85, C100): all values are between -16 and 0, apart from the -3.14e100 for states that cannot begin a text. 8870 characters, all Han, have an emission probability in some state; the other 12080 Han characters have none, and two or more of these in a row (no dictionary word among them) are tagged 'x' and 'zg' in turn. 6648 characters, all among the 8870, have a list of states in char_state_tab; every listed state has an emission probability for the character, except ('S', 'a') for 跛; every state with an emission probability is listed, except for twelve characters (么吒哩夥後徵於沈湮矽著蹠).", "quantifier": "for all characters and all 256 states; all texts of unknown Han characters up to 2^50 characters, all dictionaries with prefixes", "why_tests_cant": "the tables have 89290 emission probabilities and lists for 6648 characters, from different files that have to fit; texts are unboundedly many", "anchors": ["jieba/posseg/prob_emit.py", "jieba/posseg/prob_trans.py", "jieba/posseg/prob_start.py", "jieba/posseg/char_state_tab.py", "jieba/posseg/viterbi.py:13-53"]}
{"id": "C111", "title": "Tagged words that the HMM of the POS tagger puts together", "statement": "With doubles and tables like the shipped ones: if the tables give any state sequence for a run of Han characters a probability (the first state can begin a text, each next can follow, each character has an emission probability in its state and this state is listed for it), the words that the HMM makes of the run are allowed too: all characters of a word have emission probabilities for their positions and the tag of the word; at the end of a run a word may be unfinished. With the shipped tables, 7540 characters can be words with one of 30 tags that can all follow each other; on a text with only such Han characters every pair that posseg.cut(HMM=True) yields is a single character or a dictionary word with its tag from the table of tags, text without Han characters, or such a word; and a character that is not known as part of a word (717 characters) is never joined to others except in dictionary words.", "quantifier": "for all texts up to 2^50 characters, all dictionaries with prefixes, all tag tables", "why_tests_cant": "a MIN_FLOAT penalty competes with sums of any number of log-probabilities, and the algorithm falls back to other states when no listed one can follow; no finite set of texts shows that neither happens", "anchors": ["jieba/posseg/viterbi.py:13-53", "jieba/posseg/__init__.py:133-225", "jieba/posseg/prob_emit.py", "jieba/posseg/char_state_tab.py"]}
{"id": "C112", "title": "Initialising a POS tokenizer while others tag", "statement": "Calls of POSTokenizer.initialize(), of cut of POS tokenizers and of the methods of the tokenizer they belong to are under way at the same time, on an initialised tokenizer, interleaved access by access.  Undisturbed, initialize() does what the sequential function does.  No call raises and every call that keeps moving returns.  What cut of a POS tokenizer yields joins to the text, whatever happens to the table meanwhile; every tag was known at the beginning, belongs to a user word, is given to the word by the dictionary file, or is x, m, eng or (with HMM, Han words) one of the 64 HMM tags.  When all calls of initialize() of a POS tokenizer have returned, its table holds, for every word without a tag as a user word, exactly the tag on the last line of the dictionary file with that word.  Initialising is not atomic: a word that has its tag before and after can be tagged x meanwhile.", "quantifier": "all interleavings of any number of such calls, all texts, all dictionary files whose lines are blank or have three fields", "why_tests_cant": "The table is emptied in place and filled line by line without a lock; tests run one thread and one schedule.", "anchors": ["jieba/posseg/__init__.py:93-110", "jieba/posseg/__init__.py:112-115", "jieba/posseg/__init__.py:215-250"]}
{"id": "C113", "title": "The numbers in IDF files", "statement": "float, with which IDF files are read, accepts exactly: optional blanks, an optional sign, decimal digits of any script with single underscores between them, an optional point and exponent, or inf, infinity, nan in any case; its value is the nearest double (ties to the even one), infinite from 2^1024 - 2^970 on.  Numbers with at most 15 digits that differ, differ in the same direction as doubles; 16 digits are too many.  set_idf_path accepts every file of lines word number; every word gets the number on its last line and the default is the median of the numbers of the words, wrong by at most the fraction 2^-53; a line with another second field makes it raise ValueError.  The weights that extract_tags gives then are those that the numbers written in the file give with exact arithmetic, wrong by at most the fraction 2^-50.", "quantifier": "all strings; all IDF files of such lines with numbers that are 0 or normal doubles (for the weights: 0 or between 2^-100 and 2^100); all texts", "why_tests_cant": "The grammar of float, rounding and the median of repeated words are inputs nobody enumerates; the bound on the weights is over all files and texts.", "anchors": ["jieba/analyse/tfidf.py:37-55", "jieba/analyse/tfidf.py:75-116"]}
{"id": "C114", "title": "Saying it again: add_word and suggest_freq repeated", "statement": "add_word(v) without a frequency is not idempotent: every further call raises the frequency of v by one and the total by the frequency; after n+1 calls the frequency is f+n and the total has grown by (n+1)f + n(n+1)/2, where f is what the first call gives; the frequencies of other words stay and cut(v) yields v as one token all the time.  With IEEE doubles a word that comes out whole gets its frequency again or one more, and both occur.  suggest_freq(segments, tune=True) for two or more segments, once, may not be enough to split the joined word (C28); repeated it is: the values never grow and are 0 from the call on whose number is the product of the frequencies of the segments, and then the joined word is not a token of any text, with and without HMM.", "quantifier": "all dictionaries without negative frequencies and with positive total (for add_word: prefix-closed, total not below the sum), all words of word characters other than ASCII letters and digits, all tuples of two or more non-empty segments, any number of calls", "why_tests_cant": "Unbounded number of calls; the total grows quadratically, which no single call shows.", "anchors": ["jieba/__init__.py:418-437", "jieba/__init__.py:445-474"]}
{"id": "C115", "title": "Places that no dictionary word crosses", "statement": "If no dictionary word of a text a+b begins in a and ends in b, then (with exact arithmetic, without HMM, unless the place is between two ASCII letters or digits or between CR and LF) cut(a+b) is cut(a) followed by cut(b), and likewise cut_for_search and (for texts without % and -) the words of posseg.cut: whatever stands on the other side of such a place has no influence.  With HMM the same holds for cut and cut_for_search if the token of cut(a, HMM=False) or cut(b, HMM=False) next to the place is a word of two or more characters (not only letters and digits); without that condition it is false, because the HMM puts single characters on both sides together.  The same holds for full mode, in texts without ASCII letters and digits, if a word character is next to the place; between two other characters it is false.", "quantifier": "all texts, all prefix-closed dictionaries without negative frequencies and with positive total", "why_tests_cant": "All pairs of texts and all dictionaries; the maximisation runs over the whole block, so that locality is not visible in the code.", "anchors": ["jieba/__init__.py:172-178", "jieba/__init__.py:180-196", "jieba/__init__.py:226-288"]}
{"id": "C116", "title": "Taking back add_word and del_word", "statement": "add_word(v,f) for a new word followed by del_word(v), and del_word(v) followed by add_word(v,f) for a word of frequency f, leave the words and their frequencies as they were, but the total is greater by f and the HMM must split v from now on. Every text comes out in full mode as before. Without HMM (exact arithmetic, text without ASCII letters and digits) it comes out with at most as many tokens as before, but maybe with others; with HMM v may be cut although the dictionary has it again.", "quantifier": "every text, word, tag, frequency f >= 0, initialised state; concrete dictionaries for the negative parts", "why_tests_cant": "Tests compare a few texts; that full mode never changes and the other modes can is a statement about all texts and all dictionaries.", "anchors": ["jieba/__init__.py:418-444 (add_word, del_word)", "jieba/__init__.py:180-199 (get_DAG)", "jieba/finalseg/__init__.py:81-83 (add_force_split)"]}
{"id": "C117", "title": "The HMM only joins single characters", "statement": "On texts without ASCII letters and digits, the tokens of cut(text, HMM=True) are those of cut(text, HMM=False) except that neighbouring tokens of one character may be joined: every token of two or more characters of HMM=False survives, and there are never more tokens with the HMM. The same holds for the words of posseg.cut. With ASCII letters it is false: letters put together without the HMM may come out one by one with it.", "quantifier": "all texts without ASCII letters and digits, all dictionaries without negative frequencies and with positive total, all HMM tables (posseg: the shipped states, transitions and character table, any numbers); a concrete dictionary for the negative part", "why_tests_cant": "Two different functions are compared on all texts; tests compare a few.", "anchors": ["jieba/__init__.py:226-247", "jieba/__init__.py:249-287", "jieba/posseg/__init__.py:152-215"]}
{"id": "C118", "title": "No bounded look-ahead", "statement": "There is a dictionary of eight words such that for every n two texts exist that agree in their first n characters (the second is the first and one more character) and whose first tokens differ, with and without HMM (exact arithmetic). So nobody can say the first token of a run of characters before its end has been seen: cut cannot be applied to text that arrives in pieces, other than at the places of C15 and C115.", "quantifier": "every n, all HMM tables, HMM on and off; one concrete dictionary", "why_tests_cant": "A family of texts of unbounded length.", "anchors": ["jieba/__init__.py:172-178", "jieba/__init__.py:180-196", "jieba/__init__.py:226-287"]}
{"id": "C119", "title": "Words that can never come out", "statement": "A word of two or more characters (other than CR LF) with a character outside the word characters of cut is never yielded by cut or cut_for_search, with or without HMM, whatever the dictionary, the text and the history of changes, although add_word and dictionary files accept it. Full mode never yields a word that mixes word characters with others. posseg.cut in addition never yields words with % or -, which cut can yield. add_word(v) without frequency (exact arithmetic, no ASCII letters or digits in v) makes cut(v) yield v if and only if v consists of word characters, or is one character or CR LF. The word in the last line of test/userdict.txt is of this kind: it is accepted and never yielded.", "quantifier": "all words, texts, dictionaries, states and histories", "why_tests_cant": "A statement about all texts and dictionaries: that something never happens.", "anchors": ["jieba/__init__.py:40-46", "jieba/__init__.py:316-336", "jieba/posseg/__init__.py:17-26", "jieba/posseg/__init__.py:217-242", "jieba/__init__.py:418-437"]}
{"id": "C120", "title": "Numbers and foreign words in segmentation", "statement": "Take a non-empty text of characters that the segmenter treats as word characters, none of them Han, in which no dictionary word of two or more characters occurs. With HMM, cut yields maximal runs of ASCII letters and digits, each with a decimal part (dot and digits) and a percent sign if these follow, and the text between such numbers in one piece. Without HMM it yields maximal runs of ASCII letters and digits, and every other character by itself. So 3.14% is one token with HMM, and the four tokens 3, ., 14, % without. POS tagging with HMM yields maximal runs of dots and digits tagged m, maximal runs of letters and digits that begin with a letter tagged eng, and the rest tagged x (texts of two or more characters); without HMM digits are tagged eng. If a dictionary word occurs inside a number, the number is taken apart.", "quantifier": "all dictionaries with non-negative frequencies, all totals > 0, all HMM tables, all texts of the kind described", "why_tests_cant": "Tests contain a handful of numbers; the claim says for every such text, whatever its length and mixture of letters, digits, dots and percent signs, exactly which tokens come out in either mode.", "anchors": ["jieba/__init__.py:40-46", "jieba/__init__.py:216-290", "jieba/finalseg/__init__.py:76-98", "jieba/posseg/__init__.py:15-23", "jieba/posseg/__init__.py:136-147"]}
{"id": "C121", "title": "How long tokens can be", "statement": "Without HMM, no token of cut is longer than the longest dictionary word, except runs of ASCII letters and digits (and CR LF). With HMM there is no bound: with the shipped tables and double-precision floats, the text 早稲…稲田 with k times 稲 comes out as one token of k+2 characters for every k from 1 (up to 2^50), with every dictionary that has none of the words in it and unless that very word has been deleted.", "quantifier": "all texts, dictionaries and arithmetics without HMM; all k up to 2^50-2, all dictionaries without words of two or more characters in the text, all force-split sets without it, for the shipped HMM tables", "why_tests_cant": "A family of texts of unbounded length, and a bound for all texts.", "anchors": ["jieba/__init__.py:226-287", "jieba/finalseg/__init__.py:28-75", "jieba/finalseg/prob_emit.py"]}
{"id": "C122", "title": "TF-IDF keywords of two texts together", "statement": "In exact arithmetic, with a separator character between two texts that can be segmented, extract_tags returns the keywords of either text, and the weight of each is the mean of its weights in the two texts (0 where it is not a keyword), weighted by the numbers of accepted tokens of the texts. So a word that outweighs another in both texts outweighs it in the two together, a weight lies between the two weights, and exchanging the texts changes no weight.", "quantifier": "every pair of texts, separator that is neither a word character nor splits CR LF, allowPOS and flags, every initialised state", "why_tests_cant": "Relates the runs on three texts, for all texts.", "anchors": ["jieba/analyse/tfidf.py:TFIDF.extract_tags"]}
{"id": "C123", "title": "What the frequencies of a dictionary mean", "statement": "In exact arithmetic only the proportions of the frequencies to the total matter for a text all of whose word characters are in the dictionary: cut in all modes, cut_for_search and posseg.cut give the same result with any other dictionary that has the same entries in the same proportions, e.g. with all frequencies multiplied by the same number. With characters that are not in the dictionary this is false, because they count as frequency 1. If all words have the same frequency, cut without HMM yields as few words as possible (which is not what taking the longest word at each place would give).", "quantifier": "every pair of proportional dictionaries with positive totals, every text, mode and HMM tables; a concrete dictionary for the negative part", "why_tests_cant": "Relates the runs with all pairs of proportional dictionaries, and with all competing segmentations.", "anchors": ["jieba/__init__.py:Tokenizer.calc", "jieba/__init__.py:Tokenizer.cut", "jieba/posseg/__init__.py:POSTokenizer.cut"]}
{"id": "C124", "title": "Command line options", "statement": "A command line of python -m jieba with at most one file name is understood as it is meant, however its options are written: short or together in one argument (-anq), long or abbreviated to an unambiguous beginning, with the value after =, directly after the letter or in the next argument; the last occurrence counts, and the order does not matter if no option with a value is repeated. Two file names, an unknown letter, or -D or -u without value are usage errors; -V and -h end the program. The non-empty file name is read, otherwise standard input. A file name directly after -d or -p is taken for the delimiter: the file is not read and standard input is segmented; after -- a file name is understood in any case. -p with an empty value does not switch POS tagging on.", "quantifier": "every list of options and file names, every way of writing them, all values that do not look like an option: no dash in front, a single dash, negative numbers, one dash and a space (any value after = or glued to the letter)", "why_tests_cant": "Over all command lines and all ways to write the same options.", "anchors": ["jieba/__main__.py:parser", "jieba/__main__.py:args", "jieba/__main__.py:fp"]}
{"id": "C125", "title": "Loading the same user dictionary again", "statement": "load_userdict of a dictionary whose lines all have a frequency, repeated any number of times on an initialised tokenizer, always succeeds. After the second and every later time each word, tag and forced split is as after the first, and so is full mode; but the total grows by the sum of the frequencies every time (if that sum is 0, no mode sees a difference). Hence loading twice is not loading once: a line about one word can join the characters of another word when it is loaded again. Cutting without HMM then gives the same number of words or fewer with every further time, for texts without ASCII letters and digits. It settles: if no frequency is above M, then from time number M to the power of the length on, plus one, the segmentation of a text does not change any more. When the total is above M to the power of the length, a run of word characters is cut into the fewest words possible.", "quantifier": "All worlds with an initialised tokenizer, all sources (path, open file, lines; an open file stands for a fresh one with the same content) whose nonblank lines have a frequency, all numbers of times, all texts. State and full mode: any arithmetic. Coarser, settling and fewest words: exact arithmetic, prefix closed dictionary without negative frequencies, total above 0.", "why_tests_cant": "The drift shows after many reloads only, in long-running processes, and the number of reloads is unbounded.", "anchors": ["jieba/__init__.py:380-438", "jieba/__init__.py:169-182"]}
{"id": "C126", "title": "How much output there is", "statement": "Accurate mode and posseg.cut yield at most as many tokens as the text has characters. cut_for_search yields at most twice as many, with at most six times as many characters together, and tokenize at most twice as many triples; the factors 2 and 6 cannot be improved. Full mode yields at most max(3, L-1) tokens per character, where L is the length of the longest word of the dictionary (max(1, L-1) in a run of word characters); in terms of the text alone it is quadratic: for every n there are a dictionary of n words and a text of n characters with n(n-1)/2 tokens or more.", "quantifier": "All texts, dictionaries, arithmetics, HMM tables and HMM settings; accurate mode and tagging in every state of the process.", "why_tests_cant": "The bound is about texts of every length and dictionaries with words of every length.", "anchors": ["jieba/__init__.py:198-224", "jieba/__init__.py:289-336", "jieba/__init__.py:338-354", "jieba/__init__.py:476-507"]}
{"id": "C127", "title": "Stop words that do nothing, and the list that is shipped", "statement": "A stop word of fewer than two characters has no effect on any keyword extraction. jieba.analyse.set_stop_words with the list shipped in extra_dict/stop_words.txt succeeds and adds exactly 19 words to the stop words present from the start (the rest of the list is there already, one line is double). Eleven of them are single characters and do nothing: for every text and all settings TF-IDF and TextRank give what they give with the other eight words alone. These do matter.", "quantifier": "All texts, dictionaries, settings (topK, withWeight, allowPOS, withFlag), arithmetics, states of the process; all extractors whose stop words include the default ones; any str.lower that never makes a word shorter.", "why_tests_cant": "Which words of a stop word list can ever filter something is a statement about all texts.", "anchors": ["jieba/analyse/tfidf.py:15-30", "jieba/analyse/tfidf.py:95-104", "jieba/analyse/textrank.py:64-68", "jieba/analyse/__init__.py:16-18", "extra_dict/stop_words.txt:1-51"]}
{"id": "C128", "title": "get_FREQ, get_DAG and calc called from outside", "statement": "calc with any graph of word ends succeeds (positive total, no negative frequency) if and only if every position of the text has ends, not before the position and inside the text; then the route it returns describes, from every position on, a walk through the graph with the greatest score, and the longest first word among those. Neither get_FREQ nor calc initialises the tokenizer: before the first use get_FREQ knows no word and calc raises ValueError; after set_dictionary both still work with the old table. After the next get_DAG, get_FREQ(v) is the frequency on the last line of the file with v, 0 (not the default) if v only begins a word, and the default otherwise. get_DAG followed by calc describes the words that cut(text, HMM=False) yields.", "quantifier": "all graphs, texts, dictionaries, histories; every arithmetic with monotone addition", "why_tests_cant": "the graph is an argument of a public function and may be any dict of lists", "anchors": ["jieba/__init__.py:172-196", "jieba/__init__.py:524"]}
{"id": "C129", "title": "A user dictionary is an appendix of the dictionary", "statement": "Let every line of a user dictionary be plain: a word without blanks, a frequency in digits and perhaps a tag in lower-case letters, with one blank between them. Loading it into a tokenizer that was initialised from a dictionary file gives exactly the table and the total of that file with the lines of the user dictionary at its end; and if every line has a tag, exactly its table of tags. So set_dictionary(A) followed by load_userdict(B) segments every text as set_dictionary(A+B) does, provided no frequency in B is 0. For blank lines, words with blanks, words without frequency and lines that begin with a byte order mark this is not so.", "quantifier": "every dictionary file that ends with a line end, every user dictionary of plain lines, every history before, every text, mode and flag; concrete lines for the negative parts", "why_tests_cant": "gen_pfdict and load_userdict/add_word are two separate implementations of the same update, with separate parsers of their lines; that they agree on all plain lines in any number and order, duplicates and prefixes included, is a statement about all files.", "anchors": ["jieba/__init__.py:72-91", "jieba/__init__.py:380-437", "jieba/posseg/__init__.py:97-115"]}
{"id": "C130", "title": "Attributes of POS tokenizers", "statement": "An attribute that a POSTokenizer does not have is that of the tokenizer it was made with (or of the first object down the line that has it, if it was made with another POSTokenizer); AttributeError if none has it. Of the attributes of Tokenizer all are reached in this way except cut_for_search, lcut_for_search and tokenize, which raise NotImplementedError, and __init__, __repr__, initialize, cut and lcut, which POSTokenizer has itself; _lcut_for_search, a second name of a refused method, is reached. Assignments are not passed on. Not so good: an object whose tokenizer is not set yet answers every question for a missing attribute with endless recursion instead of AttributeError; and a POSTokenizer made with another one no longer sees the tags of user words once it has taken over some.", "quantifier": "every heap of objects, every chain of POSTokenizers, every attribute name, every recursion limit large enough (every limit at all for the endless recursion)", "why_tests_cant": "attribute access depends on which attributes are set on which object; the endless recursion only shows on objects that the constructor has not finished", "anchors": ["jieba/posseg/__init__.py:78-115", "jieba/__init__.py:53-515"]}
{"id": "C131", "title": "Only the words that occur in a text matter", "statement": "Two dictionaries whose keys are closed under prefixes, with the same total, that give the same frequency to every non-empty string occurring in a text (an absent entry counts like 0) segment that text alike in every mode and with or without HMM, also for search and as tokens with positions; the words that the HMM must split may differ in words that do not occur; POS tagging is the same if the tags of the occurring strings agree too. So the entries for the strings of the text are all that is needed of a dictionary, besides the total. Deleting a word that does not occur in a text changes nothing for it, and adding one changes nothing in full mode, and otherwise acts only through the total.", "quantifier": "For all texts, dictionaries, arithmetics, HMM tables, modes and flags.", "why_tests_cant": "A test would compare two dictionaries on some texts; that nothing outside the text is ever looked up, in any branch, needs all of them.", "anchors": ["jieba/__init__.py:172-354", "jieba/__init__.py:418-443", "jieba/__init__.py:476-507", "jieba/finalseg/__init__.py:85-100", "jieba/posseg/__init__.py:117-240"]}
{"id": "C132", "title": "Chinese characters mean nothing beyond the dictionary and the tables", "statement": "Replace Chinese characters (those of the range 4E00-9FD5) by Chinese characters of that range in a text, in the dictionary, in the words that must be split, in the tables of the HMM (and in the tags): segmentation in every mode, search mode, tokens with positions and POS tagging give the same result with the characters replaced, the same tags and positions and the same exception if any. In particular, characters of the range that neither dictionary nor tables know are interchangeable. The range matters: characters outside of it are not found even if the dictionary has them.", "quantifier": "For all replacements (also not injective ones, if the dictionary allows them), texts, dictionaries, tables, modes, flags and arithmetics.", "why_tests_cant": "That no character is treated in a special way anywhere cannot be seen from samples of characters.", "anchors": ["jieba/__init__.py:36-46", "jieba/__init__.py:172-354", "jieba/__init__.py:476-507", "jieba/finalseg/__init__.py:37-100", "jieba/posseg/__init__.py:15-23", "jieba/posseg/__init__.py:117-240", "jieba/posseg/viterbi.py:14-53"]}
{"id": "C133", "title": "With the HMM, cut and posseg.cut differ only in runs of single characters", "statement": "For texts without ASCII letters and digits, % and -, and with the shipped state tables, cut and posseg.cut with the HMM both arise from the same list of words (that of either of them without the HMM) by joining neighbouring words of one character; neither raises. So a word that only one of them has consists of characters that are words of their own without the HMM. They do differ: words that must be split are split by cut only.", "quantifier": "For all texts without those characters, all dictionaries with frequencies >= 0 and positive total, all probabilities of both HMMs, all sets of words that must be split, all iteration orders of sets and all arithmetics.", "why_tests_cant": "The two HMMs have thousands of parameters; agreement outside of the runs on samples says nothing about other texts and dictionaries.", "anchors": ["jieba/__init__.py:249-317", "jieba/finalseg/__init__.py:69-100", "jieba/posseg/__init__.py:117-240"]}
{"id": "C134", "title": "calc with a route that is not empty", "statement": "calc(sentence, DAG, route) called from outside writes nothing outside of the keys 0 to len(sentence), also if it raises. If the ends in the graph are inside the text and not before their position, what route contained before does not matter, so that one route can be handed in again and again. With an empty route it succeeds if and only if the ends are like that; negative ends raise as well. With an end outside of the text, stale entries of an earlier call are used without an exception.", "quantifier": "For all texts, graphs (dicts with int keys and any ints as ends), routes, earlier calls with the same route, tokenizer states with frequencies >= 0 and positive total (the first statement: all states) and arithmetics.", "why_tests_cant": "A route is a mutable argument; that no earlier content has an influence is a statement about all contents.", "anchors": ["jieba/__init__.py:172-178"]}
{"id": "C135", "title": "What print shows of lists of words, pairs and tokenizers", "statement": "repr of a str is a string literal of exactly this str (in double quotes if and only if it contains single but no double quotes; printable characters other than quote and backslash are shown as they are), a list is shown as [ ... ] with a comma and a space between the elements, and what print(jieba.lcut(text)) or print(posseg.lcut(text)) shows is one line of printable characters that determines the words, the flags and the text, also if words or flags contain quotes, backslashes, commas, line breaks or slashes (str(pair) does not have this property, see C86). repr of a tokenizer determines its dictionary, and None is shown differently from a file called None.", "quantifier": "For all texts, lists of words and pairs (code points up to 0x10FFFF), dictionaries, HMM settings, shipped tag tables and all choices of the characters that count as printable.", "why_tests_cant": "Injectivity over all lists of all strings; the quoting rule has many cases (which quote, which escape, how many digits).", "anchors": ["jieba/__init__.py:68-69", "jieba/__init__.py:356-357", "jieba/posseg/__init__.py:53-54", "jieba/posseg/__init__.py:84-85"]}
{"id": "C136", "title": "Text that has been segmented already", "statement": "Pieces of text joined by a delimiter (characters that are no word characters, neither CR nor LF, such as a space or the \" / \" of the command line) are segmented and tagged piece by piece, and every character of a delimiter is a token of its own, tagged x. So, without HMM and in exact arithmetic, segmenting d.join(cut(text)) again gives the tokens of the text with those of the delimiters between them; without the tokens that look like part of a delimiter, accurate mode and search mode give the same for the text and for the text segmented before; and posseg.cut (in texts without ASCII letters and digits, % and -) gives the same words and tags. With HMM this is false, and with a delimiter of word characters as well.", "quantifier": "For all texts, delimiters, lists of pieces, tag tables and prefix-closed dictionaries without negative frequencies, with positive total and no frequency above it (the statements about pieces: any dictionary without negative frequencies and with positive total, with and without HMM).", "why_tests_cant": "Segmenting again what is segmented already must not change anything whatever the text is; a token could be cut differently without its neighbours.", "anchors": ["jieba/__init__.py:226-247", "jieba/__init__.py:289-336", "jieba/__init__.py:338-354", "jieba/posseg/__init__.py:150-175", "jieba/__main__.py:37-50"]}
{"id": "C137", "title": "The message for a malformed line of a dictionary", "statement": "If a line of a dictionary file is no entry, the ValueError of gen_pfdict says \"invalid dictionary entry in <file> at Line <n>: <line>\" for the first such line, counted from 1; the line is shown without blanks around it or, if it is not UTF-8, as a bytes literal of the whole line. load_word_tag likewise says \"invalid POS dictionary entry in ...\". With the name of the file, the message determines the number and what is shown. If the reported line is replaced by entries, loading succeeds or reports a later line.", "quantifier": "For all contents of files (bytes), names of files, positions of malformed lines and replacements.", "why_tests_cant": "A test has a bad line at some place; that the number is right for every file, and that repairing line by line comes to an end, are statements about all files.", "anchors": ["jieba/__init__.py:72-91", "jieba/posseg/__init__.py:97-110", "jieba/_compat.py:85-89"]}
{"id": "C138", "title": "Which file a relative path means", "statement": "With an absolute working directory, the path that _get_abs_path makes is the root followed by plain names (not empty, not ., not .., without slash), one slash between them: the names are those of walking from the root through the working directory and the given path (for an absolute path, through the given path alone), where .. goes up and stays at the root. Taking it again in any directory changes nothing. Two paths in two directories become equal exactly if they lead to the same place from the same root; so ./p, d/../p, p/ and p/. are p, and Tokenizer, set_dictionary and initialize do the same for paths that lead to the same place, also after chdir. Two slashes at the beginning, but not three or more, are kept apart from one (counterexample to the expectation that //a and /a are the same dictionary).", "quantifier": "For all working directories that begin with a slash, all paths (sequences of code points), all states.", "why_tests_cant": "A test compares some paths in the directory it runs in; that equality of results is the same as leading to the same place holds for all pairs of paths and directories.", "anchors": ["jieba/__init__.py:22", "jieba/__init__.py:60", "jieba/__init__.py:95", "jieba/__init__.py:511", "jieba/analyse/tfidf.py:10", "jieba/analyse/tfidf.py:24", "jieba/analyse/tfidf.py:69"]}
{"id": "C139", "title": "What the log says", "statement": "initialize writes no message exactly if there is nothing to do. Otherwise its messages come in one order, each at most once; the last one, \"Prefix dict has been built successfully.\", is there exactly if no exception is raised, and then the tokenizer is initialized. Without \"Dumping model to file cache\", success means that everything came from the cache file named in \"Loading model from cache\"; with it, everything came from the dictionary file, and the named cache file holds it and is the only file written unless \"Dump cache file failed.\" is there, which is exactly if writing failed. An exception leaves dictionary and files as they were. Above level 40 initialisations write nothing, above 10 only that failure; levels change nothing else. jieba.setLogLevel has no effect on enable_paddle (counterexample to: the highest level makes jieba silent), whose message \"Now, back to jieba basic cut\" after a failed import is followed by an exception.", "quantifier": "For all states, tokenizers, dictionaries, files, sequences of calls, levels and outcomes of imports.", "why_tests_cant": "The states of dictionary and cache file and the faults in writing are too many to be set up in tests; the meaning of the messages is about all of them.", "anchors": ["jieba/__init__.py:27-30", "jieba/__init__.py:49-50", "jieba/__init__.py:93-170", "jieba/_compat.py:6-12", "jieba/_compat.py:27-51"]}
{"id": "C140", "title": "Raising the IDF of words", "statement": "For the keywords of extract_tags only the IDFs of the accepted words of the text matter. If the IDFs of some words are raised (in the table or from the median), the other keywords keep their weights and their order, none of the raised words falls behind one of the others, and no other word gets an earlier place. If one word is raised, it gets no later place: it stays among the first k if it was there, and every other word among the first k was there before. Multiplying all IDFs and the median by a positive number multiplies the weights and keeps the order. All but the last hold with IEEE doubles too: rounding never turns a raise into a loss.", "quantifier": "For all texts, states, IDF tables, sets of raised words, k, allowPOS and flags.", "why_tests_cant": "A relation between two runs with different tables; tests compare few tables and texts, and ties, which decide places by first occurrence, are rare in them.", "anchors": ["jieba/analyse/tfidf.py:35-56", "jieba/analyse/tfidf.py:75-116"]}
{"id": "C141", "title": "More stop words, fewer tags", "statement": "If further words become stop words, the keywords of extract_tags are the same without those that are now stop words (compared in lower case), in the same order, and all weights are multiplied by one number: how many accepted tokens there were divided by how many there are now. So a keyword among the first k that did not become a stop word stays among the first k. With withFlag the same holds for allowing fewer tags (but some): what remains is what has an allowed tag, in the same order and proportion.", "quantifier": "For all texts, states, IDF tables, sets of stop words before and after, k, allowPOS and flags.", "why_tests_cant": "A relation between two runs with different sets of stop words; tests check some words to be absent, not that everything else keeps order and proportion.", "anchors": ["jieba/analyse/tfidf.py:20-32", "jieba/analyse/tfidf.py:75-116"]}
{"id": "C142", "title": "Windows, stop words and tags of TextRank; texts with two keywords", "statement": "A wider window, fewer stop words and more allowed tags lose no keyword of TextRank. A window (span) of at most 1 gives no keywords; all windows at least as wide as the text has tokens give the same result. Unlike with TF-IDF, a new stop word can make other keywords disappear (proved by an example). If a text has just two keywords and neither is near itself, the one that is later in the order of code points comes first with weight 1, however often and in which order they occur, and the other weight depends on the damping factor only: rounds use new values at once, in the order of the words.", "quantifier": "For all texts, states, windows, sets of stop words and tags, flags; the last part with exact arithmetic and 0 < d < 1.", "why_tests_cant": "Relations between runs with different settings; that the code points decide the order of two equally linked words looks like a plausible ranking in any test.", "anchors": ["jieba/analyse/textrank.py:24-54", "jieba/analyse/textrank.py:59-67", "jieba/analyse/textrank.py:69-108"]}
{"id": "C143", "title": "Assigning to jieba.dt", "statement": "As long as jieba.dt is not assigned to, the module-level functions are those of one tokenizer, as the README says. After jieba.dt = t: get_FREQ asks the tokenizer that was last assigned; add_word, lcut and the other functions bound at import go on with the first one; cut and cut_for_search use the first one until parallel mode is switched, after disable_parallel() the one that dt meant at that time (whether or not parallel mode was on), and after a successful enable_parallel() the one that dt meant at that time as it was then; an enable_parallel() that fails changes no name. So after jieba.dt = t, add_word and disable_parallel(), get_FREQ does not find the word, lcut uses it and cut does not (proved by an example).", "quantifier": "For all histories of calls on any tokenizers, assignments to dt, enable_parallel and disable_parallel, all texts.", "why_tests_cant": "Which tokenizer a name means depends on the whole history; tests use the module as imported.", "anchors": ["jieba/__init__.py:518-539", "jieba/__init__.py:542-563", "jieba/__init__.py:566-587", "jieba/__init__.py:590-619", "README.md:47"]}
{"id": "C144", "title": "A word that occurs more often", "statement": "If one keyword occurs more often in one text than in another and all other words occur as often, and no IDF is negative, then with extract_tags every keyword stays one, the weight of that keyword does not fall, all other weights are multiplied by one number that is at most 1, and whatever weighed more than one of the others still does. If there is another keyword, the weight of the keyword really rises when its IDF is positive, and the weights of the others with positive IDFs really fall.", "quantifier": "For all pairs of texts with such counts, states, IDF tables without negative values, allowPOS and flags; exact arithmetic.", "why_tests_cant": "A relation between two runs on different texts; tests check the weights of few texts.", "anchors": ["jieba/analyse/tfidf.py:75-116"]}
{"id": "C145", "title": "The sizes of the network, and labels as numbers", "statement": "vocab_size and num_labels are one more than the greatest number in word.dic or tag.dic, and raise ValueError exactly for files without entries. Whatever the files, every number that get_vars turns a text into is below vocab_size (and not negative unless the file has negative numbers), so the rows that the network looks up exist. label_to_ids gives every label its number and unknown labels that of O, all below num_labels; it raises KeyError exactly if a label is unknown and O is too. With the shipped files the sizes are 20941 and 57, every text has ids from 0 to 20940, a network that answers with numbers from 0 to num_labels - 1 never leads to an exception, and numbers of labels decode to the labels, unknown ones to O.", "quantifier": "For all files that load, all texts, all lists of labels; the last part for the shipped files.", "why_tests_cant": "Tests never run the network with other tables, and an id beyond the last row would show only for particular characters.", "anchors": ["jieba/lac_small/reader_small.py:65-73", "jieba/lac_small/reader_small.py:75-98", "jieba/lac_small/predict.py:43", "jieba/lac_small/nets.py:90-107"]}
{"id": "C146", "title": "Texts that the network cannot tell apart", "statement": "With use_paddle, if word.dic has an entry OOV and its tables are inverse to each other, two texts are turned into the same numbers exactly if, without outer whitespace, they have the same known characters at the same places and unknown ones at the others. Exactly then they have the same words and tags (or the same exception) whatever the network is, and cut and posseg.cut give the same for them if neither text is empty. With the shipped files, tabs, line feeds, carriage returns and spaces are all the same: texts that differ in them only have the same result.", "quantifier": "For all texts, tables that are inverse to each other, networks; the last part for the shipped files.", "why_tests_cant": "A statement about all pairs of texts; tests compare single outputs.", "anchors": ["jieba/lac_small/reader_small.py:75-98", "jieba/lac_small/predict.py:51-82", "jieba/__init__.py:301-311", "jieba/posseg/__init__.py:281-291"]}
