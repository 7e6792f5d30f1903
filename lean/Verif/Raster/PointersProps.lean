import Verif.Raster.Pointers
import Verif.Raster.PageCore

/-!
# C98: the encoder reads and writes only its own memory

The encoder with its pointers (`Pointers.lean`) does on every bitmap that holds the page what the encoder by rows and chunks (`Page.lean`) does,
so long as a row has less than 2^31 bytes: no read or write outside, no endless loop, and nothing of what the line buffer held before.
From 2^31 bytes on the `int` of line 51 is too small.
-/

namespace Verif.Raster.Ptr

open Spec

theorem readAt_eq {mem : Bytes} {p n : Nat} (h : p + n ≤ mem.length) : readAt mem p n = .ok ((mem.drop p).take n) := by
  unfold readAt
  by_cases h0 : n = 0
  · simp [h0]
  · simp [h0, h]

/-- From `pos` up to `epos` there are the chunks `cs`. -/
structure At (mem : Bytes) (c epos pos : Nat) (cs : List Bytes) : Prop where
  fits : mem.length < W
  stop : epos ≤ mem.length
  len : pos + cs.length * c = epos
  chunks : ∀ x ∈ cs, x.length = c
  data : (mem.drop pos).take (cs.length * c) = cs.flatten

theorem At.append {mem : Bytes} {c epos pos : Nat} {a b : List Bytes} (h : At mem c epos pos (a ++ b)) :
    readAt mem pos (a.length * c) = .ok a.flatten ∧ add pos (a.length * c) = pos + a.length * c ∧
    At mem c epos (pos + a.length * c) b ∧ a.length * c % W = a.length * c := by
  have hl := h.len
  have hs := h.stop
  have hf := h.fits
  have hd := h.data
  rw [List.length_append, Nat.add_mul] at hl hd
  have ha : a.flatten.length = a.length * c := by
    rw [flatten_length_const c a (fun x hx => h.chunks x (by simp [hx]))]
  rw [List.take_add, List.drop_drop, List.flatten_append] at hd
  have hx := List.append_inj hd (by rw [ha, List.length_take, List.length_drop]; omega)
  refine ⟨?_, ?_, ⟨hf, hs, by omega, fun x hx => h.chunks x (by simp [hx]), hx.2⟩, Nat.mod_eq_of_lt (by omega)⟩
  · rw [readAt_eq (by omega), hx.1]
  · unfold add; rw [Nat.mod_eq_of_lt (by omega)]

theorem At.cons {mem : Bytes} {c epos pos : Nat} {x : Bytes} {b : List Bytes} (h : At mem c epos pos (x :: b)) :
    readAt mem pos c = .ok x ∧ add pos c = pos + c ∧ At mem c epos (pos + c) b := by
  have := At.append (a := [x]) (b := b) (by simpa using h)
  simp at this
  exact ⟨this.1, this.2.1, this.2.2.1⟩

theorem At.same {mem : Bytes} {c epos p q : Nat} {x y : Bytes} {a b : List Bytes}
    (h : At mem c epos p (x :: a)) (h2 : At mem c epos q (y :: b)) : same mem p q c = .ok (decide (x = y)) := by
  simp [Ptr.same, h.cons.1, h2.cons.1]

theorem At.eq_iff {mem : Bytes} {c epos pos : Nat} {cs : List Bytes} (hc : 0 < c) (h : At mem c epos pos cs) :
    pos = epos ↔ cs = [] := by
  have hl := h.len
  constructor
  · intro he
    have : cs.length * c = 0 := by omega
    rcases Nat.mul_eq_zero.mp this with h0 | h0
    · exact List.length_eq_zero_iff.mp h0
    · omega
  · rintro rfl; simp at hl; omega

theorem repeatLoop_eq {mem : Bytes} {c epos current : Nat} {x : Bytes} {a : List Bytes} (hc : 0 < c) (hx : At mem c epos current (x :: a))
    (rounds pos rep : Nat) (xs : List Bytes) (h : At mem c epos pos xs) (hr : rep < 127) (hn : 127 - rep < rounds) :
    ∃ pos', repeatLoop mem c epos current rounds pos rep = .ok (pos', (scanRepeat x xs rep).1) ∧ At mem c epos pos' (scanRepeat x xs rep).2 := by
  induction rounds generalizing pos rep xs with
  | zero => omega
  | succ rounds ih =>
    unfold repeatLoop
    cases xs with
    | nil => rw [if_pos ((h.eq_iff hc).mpr rfl)]; exact ⟨pos, by simp [scanRepeat], by simpa [scanRepeat] using h⟩
    | cons y ys =>
      rw [if_neg (fun he => by simpa using (h.eq_iff hc).mp he), h.same hx]
      simp only [Outcome.bind_ok, decide_eq_true_eq, scanRepeat]
      obtain ⟨_, h2, h3⟩ := h.cons
      by_cases hy : y = x
      · simp only [hy, if_true]
        by_cases h7 : rep + 1 = 127
        · simp only [h7, if_true, h2]; exact ⟨_, rfl, h3⟩
        · simp only [h7, if_false, h2]; exact ih _ _ _ h3 (by omega) (by omega)
      · simp only [hy, if_false]; exact ⟨_, rfl, h⟩

theorem verbatimLoop_eq {mem : Bytes} {c epos : Nat} (hc : 0 < c)
    (rounds pos v : Nat) (x : Bytes) (xs : List Bytes) (h : At mem c epos pos (x :: xs)) (hr : v < 127) (hn : 127 - v < rounds) :
    ∃ pos', verbatimLoop mem c epos rounds pos v = .ok (pos', (scanVerbatim (x :: xs) v).1) ∧ At mem c epos pos' (scanVerbatim (x :: xs) v).2 := by
  induction rounds generalizing pos v x xs with
  | zero => omega
  | succ rounds ih =>
    obtain ⟨_, h2, h3⟩ := h.cons
    unfold verbatimLoop scanVerbatim
    rw [h2]
    by_cases h7 : v + 1 = 127
    · simp only [h7, if_true]; exact ⟨_, rfl, h3⟩
    · simp only [h7, if_false]
      cases xs with
      | nil => rw [if_pos ((h3.eq_iff hc).mpr rfl)]; exact ⟨_, rfl, h3⟩
      | cons y ys =>
        rw [if_neg (fun he => by simpa using (h3.eq_iff hc).mp he), h3.same h]
        simp only [Outcome.bind_ok, decide_eq_true_eq]
        by_cases hy : y = x
        · simp only [hy, if_true, ne_eq, not_true, if_false]; exact ⟨_, rfl, by simpa [hy] using h3⟩
        · simp only [hy, if_false, ne_eq, not_false_iff, if_true]
          exact ih _ _ _ _ h3 (by omega) (by omega)

theorem compressLoop_eq {mem : Bytes} {c epos : Nat} (hc : 0 < c) (rounds start : Nat) (cs : List Bytes) (h : At mem c epos start cs)
    (hn : cs.length < rounds) : compressLoop mem c epos rounds start = .ok (compressChunks cs) := by
  induction rounds generalizing start cs with
  | zero => omega
  | succ rounds ih =>
    unfold compressLoop
    cases cs with
    | nil => rw [if_pos ((h.eq_iff hc).mpr rfl), compressChunks]
    | cons cur rest =>
      obtain ⟨h1, h2, h3⟩ := h.cons
      simp only [List.length_cons] at hn
      rw [if_neg (fun he => by simpa using (h.eq_iff hc).mp he), h2]
      have heq : repeats mem c epos start = .ok (decide (rest = [] ∨ rest.head? = some cur)) := by
        unfold repeats
        rw [h2]
        cases rest with
        | nil => rw [if_pos ((h3.eq_iff hc).mpr rfl)]; simp
        | cons y ys => rw [if_neg (fun he => by simpa using (h3.eq_iff hc).mp he), h3.same h]; simp
      rw [heq, compressChunks]
      simp only [Outcome.bind_ok, decide_eq_true_eq]
      by_cases hrep : rest = [] ∨ rest.head? = some cur
      · rw [if_pos hrep, if_pos hrep]
        obtain ⟨pos', hp, hat⟩ := repeatLoop_eq hc h 128 (start + c) 0 rest h3 (by omega) (by omega)
        rw [hp, h1]
        simp only [Outcome.bind_ok]
        rw [ih pos' _ hat (by have := scanRepeat_length cur rest 0; omega)]
        rfl
      · rw [if_neg hrep, if_neg hrep]
        obtain ⟨y, ys, rfl⟩ := List.exists_cons_of_ne_nil (fun he => hrep (Or.inl he))
        obtain ⟨pos', hp, hat⟩ := verbatimLoop_eq hc 128 (start + c) 1 y ys h3 (by omega) (by omega)
        rw [hp]
        simp only [Outcome.bind_ok]
        have hv : (if pos' ≠ epos then (scanVerbatim (y :: ys) 1).1 - 1 else (scanVerbatim (y :: ys) 1).1) = verbatimCount (y :: ys) := by
          unfold verbatimCount
          have := hat.eq_iff hc
          by_cases he : pos' = epos
          · simp [he, this.mp he]
          · have hne : (scanVerbatim (y :: ys) 1).2 ≠ [] := fun h => he (this.mpr h)
            simp [he, hne]
        rw [hv]
        have hspec := verbatimCount_spec (y :: ys) (by simp)
        by_cases h1v : verbatimCount (y :: ys) = 1
        · rw [if_pos h1v, if_pos h1v, h1]
          simp only [Outcome.bind_ok]
          rw [ih _ _ h3 (by omega)]
          rfl
        · rw [if_neg h1v, if_neg h1v]
          have hsplit := At.append (a := (cur :: y :: ys).take (verbatimCount (y :: ys)))
            (b := (cur :: y :: ys).drop (verbatimCount (y :: ys))) (by rw [List.take_append_drop]; exact h)
          have hlen : ((cur :: y :: ys).take (verbatimCount (y :: ys))).length = verbatimCount (y :: ys) := by
            rw [List.length_take]; simp at hspec ⊢; omega
          rw [hlen] at hsplit
          obtain ⟨s1, s2, s3, s4⟩ := hsplit
          rw [s4, s1, s2]
          simp only [Outcome.bind_ok]
          rw [ih _ _ s3 (by rw [List.length_drop]; simp at hn ⊢; omega)]
          rfl

theorem compressLine_eq {mem : Bytes} {c raw n : Nat} (hc : 0 < c) (hf : mem.length < W) (hin : raw + n * c ≤ mem.length) :
    compressLine mem raw (n * c) c = Raster.compressLine c ((mem.drop raw).take (n * c)) := by
  obtain ⟨cs, h1, h2, h3⟩ := exists_chunks c n ((mem.drop raw).take (n * c)) (by rw [List.length_take, List.length_drop]; omega)
  have hat : At mem c (raw + n * c) raw cs := ⟨hf, hin, by rw [h2], h3, by rw [h2, h1]⟩
  unfold compressLine Raster.compressLine
  have : add raw (n * c) = raw + n * c := by unfold add; exact Nat.mod_eq_of_lt (by omega)
  rw [this, compressLoop_eq hc _ _ cs hat (by rw [h2]; have := Nat.le_mul_of_pos_right n hc; omega),
    ← h1, chunksOf_flatten c hc cs h3]
  rfl

/-! ## Mirroring a line -/

theorem writeAt_eq {R tmp : Bytes} {i n : Nat} (hl : tmp.length = R.length) (hi : tmp.take i = R.take i) (hn : i + n ≤ R.length) :
    ∃ tmp', writeAt tmp i ((R.drop i).take n) = .ok tmp' ∧ tmp'.length = R.length ∧ tmp'.take (i + n) = R.take (i + n) := by
  have hdl : ((R.drop i).take n).length = n := by rw [List.length_take, List.length_drop]; omega
  unfold writeAt
  by_cases h0 : (R.drop i).take n = []
  · have hn0 : n = 0 := by rw [h0] at hdl; simpa using hdl.symm
    exact ⟨tmp, by simp [h0], hl, by simpa [hn0] using hi⟩
  · rw [if_neg h0, hdl, if_pos (by omega)]
    refine ⟨_, rfl, ?_, ?_⟩
    · simp only [List.length_append, List.length_take, List.length_drop]; omega
    · have hlen : (tmp.take i ++ (R.drop i).take n).length = i + n := by
        rw [List.length_append, hdl, List.length_take]; omega
      rw [List.take_append_of_le_length (by omega), List.take_of_length_le (by omega), hi, List.take_add]

theorem flipBits_eq {mem : Bytes} {line len : Nat} (hf : mem.length < W) (hin : line + len ≤ mem.length) (rounds i : Nat) (tmp : Bytes)
    (hl : tmp.length = len) (hi : i ≤ len) (hn : len - i < rounds)
    (ht : tmp.take i = ((((mem.drop line).take len).reverse.map bitReverse)).take i) :
    flipBits mem line len rounds i tmp = .ok (((mem.drop line).take len).reverse.map bitReverse) := by
  induction rounds generalizing i tmp with
  | zero => omega
  | succ rounds ih =>
    have hrow : ((mem.drop line).take len).length = len := by rw [List.length_take, List.length_drop]; omega
    have hR : (((mem.drop line).take len).reverse.map bitReverse).length = len := by rw [List.length_map, List.length_reverse, hrow]
    unfold flipBits
    by_cases hlt : i < len
    · rw [if_pos hlt]
      have ha : add line (len - 1 - i) = line + (len - 1 - i) := by unfold add; exact Nat.mod_eq_of_lt (by omega)
      rw [ha, readAt_eq (by omega)]
      simp only [Outcome.bind_ok]
      have hd : ((mem.drop (line + (len - 1 - i))).take 1).map bitReverse =
          ((((mem.drop line).take len).reverse.map bitReverse).drop i).take 1 := by
        rw [List.drop_eq_getElem_cons (by omega : i < (((mem.drop line).take len).reverse.map bitReverse).length),
          List.drop_eq_getElem_cons (by omega : line + (len - 1 - i) < mem.length)]
        rw [List.take_succ_cons, List.take_zero, List.take_succ_cons, List.take_zero, List.map_cons, List.map_nil]
        congr 1
        rw [List.getElem_map, List.getElem_reverse, List.getElem_take, List.getElem_drop]
        congr 2
        rw [hrow]
      rw [hd]
      obtain ⟨tmp', h1, h2, h3⟩ := writeAt_eq (n := 1) (hl.trans hR.symm) ht (by omega)
      rw [h1]
      simp only [Outcome.bind_ok]
      exact ih (i + 1) tmp' (by rw [h2, hR]) (by omega) (by omega) h3
    · rw [if_neg hlt]
      have : i = len := by omega
      subst this
      rw [List.take_of_length_le (by omega), List.take_of_length_le (by omega)] at ht
      rw [ht]

theorem flipChunks_eq {mem : Bytes} {line c : Nat} (hc : 0 < c) (hf : mem.length < W) (cs : List Bytes) (h3 : ∀ x ∈ cs, x.length = c)
    (hin : line + cs.length * c ≤ mem.length) (hd : (mem.drop line).take (cs.length * c) = cs.flatten) (rounds k : Nat) (tmp : Bytes)
    (hl : tmp.length = cs.length * c) (hi : k ≤ cs.length) (hn : cs.length - k < rounds)
    (ht : tmp.take (k * c) = cs.reverse.flatten.take (k * c)) :
    flipChunks mem (add (add line (cs.length * c)) (W - c)) (cs.length * c) c rounds (k * c) tmp = .ok cs.reverse.flatten := by
  induction rounds generalizing k tmp with
  | zero => omega
  | succ rounds ih =>
    have hR : cs.reverse.flatten.length = cs.length * c := by
      rw [flatten_length_const c _ (by simpa using h3), List.length_reverse]
    unfold flipChunks
    by_cases hlt : k < cs.length
    · have hkc : (k + 1) * c ≤ cs.length * c := Nat.mul_le_mul_right c hlt
      rw [Nat.succ_mul] at hkc
      rw [if_pos (by omega)]
      have ha : add (add (add line (cs.length * c)) (W - c)) (W - k * c) = line + (cs.length - 1 - k) * c := by
        have hk2 : (cs.length - 1 - k) * c + k * c + c = cs.length * c := by
          rw [← Nat.add_mul, ← Nat.succ_mul]; congr 1; omega
        have e1 : add line (cs.length * c) = line + cs.length * c := by unfold add; exact Nat.mod_eq_of_lt (by omega)
        rw [e1]
        have e2 : add (line + cs.length * c) (W - c) = line + cs.length * c - c := by
          unfold add
          rw [show line + cs.length * c + (W - c) = line + cs.length * c - c + W by omega, Nat.add_mod_right, Nat.mod_eq_of_lt (by omega)]
        rw [e2]
        unfold add
        rw [show line + cs.length * c - c + (W - k * c) = line + (cs.length - 1 - k) * c + W by omega, Nat.add_mod_right,
          Nat.mod_eq_of_lt (by omega)]
      have hk2 : (cs.length - 1 - k) * c + k * c + c = cs.length * c := by
        rw [← Nat.add_mul, ← Nat.succ_mul]; congr 1; omega
      rw [ha, readAt_eq (by omega)]
      simp only [Outcome.bind_ok]
      have hdat : (mem.drop (line + (cs.length - 1 - k) * c)).take c = (cs.reverse.flatten.drop (k * c)).take c := by
        have hat : At mem c (line + cs.length * c) line cs := ⟨hf, hin, rfl, h3, hd⟩
        have hm : cs = cs.take (cs.length - 1 - k) ++ (cs[cs.length - 1 - k]'(by omega) :: cs.drop (cs.length - k)) := by
          conv => lhs; rw [← List.take_append_drop (cs.length - 1 - k) cs]
          rw [List.drop_eq_getElem_cons (by omega)]
          congr 3; omega
        rw [hm] at hat
        have h4 := hat.append.2.2.1
        have hlen : (cs.take (cs.length - 1 - k)).length = cs.length - 1 - k := by rw [List.length_take]; omega
        rw [hlen] at h4
        have h5 := h4.cons.1
        rw [readAt_eq (by omega)] at h5
        injection h5 with h5
        rw [h5]
        have hrev : cs.reverse = (cs.drop (cs.length - k)).reverse ++ (cs[cs.length - 1 - k]'(by omega) :: (cs.take (cs.length - 1 - k)).reverse) := by
          conv => lhs; rw [hm]
          simp
        rw [hrev, List.flatten_append]
        have hl1 : ((cs.drop (cs.length - k)).reverse).flatten.length = k * c := by
          rw [flatten_length_const c _ (by
            intro x hx; exact h3 x (List.mem_of_mem_drop (List.mem_reverse.mp hx))), List.length_reverse, List.length_drop]
          congr 1; omega
        rw [← hl1, List.drop_left]
        have hl2 : (cs[cs.length - 1 - k]'(by omega)).length = c := h3 _ (List.getElem_mem _)
        rw [List.flatten_cons, List.take_append_of_le_length (by omega), List.take_of_length_le (by omega)]
      rw [hdat]
      obtain ⟨tmp', h1, h2, h5⟩ := writeAt_eq (n := c) (hl.trans hR.symm) ht (by omega)
      rw [h1]
      simp only [Outcome.bind_ok]
      have e3 : add (k * c) c = (k + 1) * c := by
        unfold add; rw [Nat.succ_mul]; exact Nat.mod_eq_of_lt (by omega)
      rw [e3]
      exact ih (k + 1) tmp' (by rw [h2, hR]) (by omega) (by omega) (by rw [Nat.succ_mul]; exact h5)
    · have : k = cs.length := by omega
      subst this
      rw [if_neg (by omega)]
      rw [List.take_of_length_le (by omega), List.take_of_length_le (by omega)] at ht
      rw [ht]

theorem flip_eq {mem : Bytes} {bpc c line n : Nat} {tmp : Bytes} (hc : 0 < c) (hf : mem.length < W) (hin : line + n * c ≤ mem.length)
    (hl : tmp.length = n * c) : flip mem bpc c line (n * c) tmp = flipLine bpc c ((mem.drop line).take (n * c)) := by
  unfold flip flipLine
  by_cases h1 : bpc = 1
  · rw [if_pos h1, if_pos h1]
    exact flipBits_eq hf hin _ 0 tmp hl (by omega) (by omega) (by simp)
  · rw [if_neg h1, if_neg h1]
    obtain ⟨cs, h1, h2, h3⟩ := exists_chunks c n ((mem.drop line).take (n * c)) (by rw [List.length_take, List.length_drop]; omega)
    subst h2
    have := flipChunks_eq hc hf cs h3 hin h1.symm (cs.length * c + 1) 0 tmp hl (by omega)
      (by have := Nat.le_mul_of_pos_right cs.length hc; omega) (by simp)
    rw [Nat.zero_mul] at this
    rw [this, ← h1, chunksOf_flatten c hc cs h3]
    rfl

theorem flipLine_length {bpc c n : Nat} {line x : Bytes} (hc : 0 < c) (hn : line.length = n * c) (h : flipLine bpc c line = .ok x) :
    x.length = n * c := by
  unfold flipLine at h
  split at h
  · cases h; simp [hn]
  · obtain ⟨cs, h1, h2, h3⟩ := exists_chunks c n line hn
    rw [← h1, chunksOf_flatten c hc cs h3] at h
    cases h
    rw [flatten_length_const c _ (by simpa using h3), List.length_reverse, h2]

theorem flipLine_ok {bpc c n : Nat} {line : Bytes} (hc : 0 < c) (hn : line.length = n * c) : ∃ x, flipLine bpc c line = .ok x := by
  unfold flipLine
  split
  · exact ⟨_, rfl⟩
  · obtain ⟨cs, h1, h2, h3⟩ := exists_chunks c n line hn
    rw [← h1, chunksOf_flatten c hc cs h3]
    exact ⟨_, rfl⟩

theorem putLine_eq {mem : Bytes} {bpc c this n : Nat} {hflip : Bool} {tmp : Bytes} (hc : 0 < c) (hf : mem.length < W)
    (hin : this + n * c ≤ mem.length) (hl : tmp.length = n * c) :
    ∃ line body tmp', lineData bpc c hflip ((mem.drop this).take (n * c)) = .ok line ∧ Raster.compressLine c line = .ok body ∧
      putLine mem bpc c (n * c) hflip this tmp = .ok (body, tmp') ∧ tmp'.length = n * c := by
  have hrow : ((mem.drop this).take (n * c)).length = n * c := by rw [List.length_take, List.length_drop]; omega
  unfold lineData putLine
  cases hflip with
  | false =>
    obtain ⟨e, he, -⟩ := compressLine_ok c hc n _ hrow
    exact ⟨_, e, tmp, rfl, he, by simp [compressLine_eq hc hf hin, he], hl⟩
  | true =>
    obtain ⟨x, hx⟩ := flipLine_ok (bpc := bpc) hc hrow
    have hxl := flipLine_length hc hrow hx
    obtain ⟨e, he, -⟩ := compressLine_ok c hc n x hxl
    refine ⟨x, e, x, hx, he, ?_, hxl⟩
    have := compressLine_eq (mem := x) (raw := 0) (n := n) hc (by omega) (by omega)
    simp only [List.drop_zero] at this
    rw [List.take_of_length_le (by omega)] at this
    simp [flip_eq hc hf hin hl, hx, this, he]

/-! ## The rows -/

theorem rowScan_eq {mem : Bytes} {len oneLine : Nat} {rows : List Bytes} {addr : Nat → Nat}
    (hin : ∀ y < rows.length, addr y + len ≤ mem.length)
    (hrow : ∀ y (hy : y < rows.length), rows[y] = (mem.drop (addr y)).take len)
    (hnext : ∀ y, y + 1 < rows.length → add (addr y) oneLine = addr (y + 1))
    {this : Nat} (hthis : this + len ≤ mem.length)
    (rounds y next rep : Nat) (hy : y < rows.length) (hn : y + 1 < rows.length → next = addr (y + 1)) (hr : rep < 255) (hro : 255 - rep < rounds) :
    ∃ y', rowScan mem rows.length len oneLine this rounds y next rep =
        .ok (y', (scanRows ((mem.drop this).take len) (rows.drop (y + 1)) rep).1) ∧
      rows.drop (y' + 1) = (scanRows ((mem.drop this).take len) (rows.drop (y + 1)) rep).2 ∧ y ≤ y' := by
  induction rounds generalizing y next rep with
  | zero => omega
  | succ rounds ih =>
    unfold rowScan
    by_cases hlt : y + 1 < rows.length
    · rw [if_pos hlt, hn hlt, List.drop_eq_getElem_cons hlt]
      simp only [scanRows, same, readAt_eq hthis, readAt_eq (hin _ hlt), Outcome.bind_ok, Outcome.pure_eq, decide_eq_true_eq, hrow _ hlt]
      by_cases he : (mem.drop this).take len = (mem.drop (addr (y + 1))).take len
      · rw [if_pos he, if_pos he]
        by_cases h5 : rep + 1 = 255
        · rw [if_pos h5, if_pos h5]; exact ⟨_, rfl, rfl, by omega⟩
        · rw [if_neg h5, if_neg h5]
          obtain ⟨y', h1, h2, h3⟩ := ih (y + 1) (add (addr (y + 1)) oneLine) (rep + 1) hlt (fun h => hnext _ h) (by omega) (by omega)
          exact ⟨y', h1, h2, by omega⟩
      · rw [if_neg he, if_neg he]
        exact ⟨y, rfl, by rw [List.drop_eq_getElem_cons hlt, hrow _ hlt], by omega⟩
    · rw [if_neg hlt, List.drop_eq_nil_of_le (show rows.length ≤ y + 1 by omega)]
      exact ⟨y, rfl, by simp [scanRows, List.drop_eq_nil_of_le (show rows.length ≤ y + 1 by omega)], by omega⟩

theorem rowLoop_eq {mem : Bytes} {bpc c n oneLine row0 : Nat} {hflip : Bool} {rows : List Bytes} {addr : Nat → Nat}
    (hc : 0 < c) (hf : mem.length < W)
    (hin : ∀ y < rows.length, addr y + n * c ≤ mem.length)
    (hrow : ∀ y (hy : y < rows.length), rows[y] = (mem.drop (addr y)).take (n * c))
    (haddr : ∀ y < rows.length, add row0 (y * oneLine % W) = addr y)
    (hnext : ∀ y, y + 1 < rows.length → add (addr y) oneLine = addr (y + 1))
    (rounds y : Nat) (tmp : Bytes) (hl : tmp.length = n * c) (hn : rows.length - y < rounds) :
    rowLoop mem bpc c rows.length (n * c) oneLine row0 hflip rounds y tmp = encodeRows bpc c hflip (rows.drop y) := by
  induction rounds generalizing y tmp with
  | zero => omega
  | succ rounds ih =>
    unfold rowLoop
    by_cases hy : y < rows.length
    · rw [if_pos hy, haddr y hy]
      obtain ⟨y', h1, h2, h3⟩ := rowScan_eq hin hrow hnext (hin y hy) 256 y (add (addr y) oneLine) 0 hy (fun h => hnext y h) (by omega) (by omega)
      obtain ⟨line, body, tmp', g1, g2, g3, g4⟩ := putLine_eq (bpc := bpc) (hflip := hflip) hc hf (hin y hy) hl
      simp only
      rw [h1, g3]
      simp only [Outcome.bind_ok]
      rw [ih (y' + 1) tmp' g4 (by omega), h2, List.drop_eq_getElem_cons hy, encodeRows, hrow y hy, g1]
      simp only [Outcome.bind_ok, g2]
    · rw [if_neg hy, List.drop_eq_nil_of_le (by omega), encodeRows]

theorem viaInt_small {n : Nat} (h : n < 2147483648) : viaInt n = n := by unfold viaInt W; split <;> omega

theorem viaInt_neg {n : Nat} (h : n < 2147483648) : viaInt ((W - n) % W) = (W - n) % W := by unfold viaInt W; split <;> omega

theorem rowBytes_mul_lt {h w n : Nat} (hm : h * w ≤ n) (y : Nat) (hy : y < h) : y * w + w ≤ n := by
  have := Nat.mul_le_mul_right w (show y + 1 ≤ h by omega)
  rw [Nat.succ_mul] at this; omega

theorem wrapPred {M h : Nat} (h0 : 0 < h) (h1 : h < M) : (h + (M - 1)) % M = h - 1 := by
  rw [show h + (M - 1) = h - 1 + M by omega, Nat.add_mod_right]; exact Nat.mod_eq_of_lt (by omega)

theorem wrapBack {M h len y size : Nat} (hm : h * len ≤ size) (hf : size < M) (hw : len < M) (hy : y < h) :
    (((h - 1) * len) % M + (y * (M - len)) % M) % M = (h - 1 - y) * len := by
  have h2 := rowBytes_mul_lt hm (h - 1 - y) (by omega)
  have e3 : (h - 1) * len + y * (M - len) = (h - 1 - y) * len + M * y := by
    rw [Nat.mul_sub, show (h - 1) * len = (h - 1 - y) * len + y * len by rw [← Nat.add_mul]; congr 1; omega, Nat.mul_comm M y]
    have : y * len ≤ y * M := Nat.mul_le_mul_left y (by omega)
    omega
  rw [← Nat.add_mod, e3, Nat.add_mul_mod_self_left, Nat.mod_eq_of_lt (by omega)]

theorem wrapNext {M h len y size : Nat} (hm : h * len ≤ size) (hf : size < M) (hw : len < M) (hy : y + 1 < h) :
    ((h - 1 - y) * len + (M - len)) % M = (h - 1 - (y + 1)) * len := by
  have h2 := rowBytes_mul_lt hm (h - 1 - y) (by omega)
  have e3 : (h - 1 - y) * len = (h - 1 - (y + 1)) * len + len := by rw [← Nat.succ_mul]; congr 1; omega
  rw [e3, show (h - 1 - (y + 1)) * len + len + (M - len) = (h - 1 - (y + 1)) * len + M by omega, Nat.add_mod_right,
    Nat.mod_eq_of_lt (by omega)]

theorem lt_W {len : Nat} (hw : len < 2147483648) : len < W := Nat.lt_trans hw (by decide)

/-- Where row `y` of the loop begins: the pointer arithmetic of lines 51-65. -/
theorem rowPtr {h len size : Nat} (v : Bool) (hm : h * len ≤ size) (hf : size < W) (hw : len < 2147483648) (y : Nat) (hy : y < h) :
    add (if v then add h (W - 1) * len % W else 0) (y * viaInt (if v then (W - len) % W else len) % W) = (if v then h - 1 - y else y) * len := by
  cases v with
  | false =>
    have := rowBytes_mul_lt hm y hy
    simp only [Bool.false_eq_true, if_false, viaInt_small hw, add, Nat.zero_add, Nat.mod_mod]
    exact Nat.mod_eq_of_lt (by omega)
  | true =>
    have hv := viaInt_neg hw
    have hlt := lt_W hw
    simp only [if_true, hv]
    by_cases h0 : len = 0
    · subst h0
      unfold add
      rw [Nat.mul_zero, Nat.sub_zero, Nat.mod_self, Nat.mul_zero, Nat.mul_zero, Nat.zero_mod, Nat.add_zero, Nat.zero_mod]
    · have hle : h ≤ size := Nat.le_trans (Nat.le_mul_of_pos_right h (by omega)) hm
      have e2 : (W - len) % W = W - len := Nat.mod_eq_of_lt (Nat.sub_lt (by omega) (by omega))
      unfold add
      rw [wrapPred (by omega) (by omega), e2]
      exact wrapBack hm hf hlt hy

/-- Going on by `oneLine` from a row leads to the next one. -/
theorem rowNext {h len size : Nat} (v : Bool) (hm : h * len ≤ size) (hf : size < W) (hw : len < 2147483648) (y : Nat) (hy : y + 1 < h) :
    add ((if v then h - 1 - y else y) * len) (viaInt (if v then (W - len) % W else len)) = (if v then h - 1 - (y + 1) else y + 1) * len := by
  cases v with
  | false =>
    have := rowBytes_mul_lt hm (y + 1) hy
    simp only [Bool.false_eq_true, if_false, viaInt_small hw, add]
    rw [← Nat.succ_mul]
    exact Nat.mod_eq_of_lt (by simp only [Nat.succ_eq_add_one]; omega)
  | true =>
    have hv := viaInt_neg hw
    have hlt := lt_W hw
    simp only [if_true, hv]
    by_cases h0 : len = 0
    · subst h0
      unfold add
      rw [Nat.mul_zero, Nat.sub_zero, Nat.mod_self, Nat.mul_zero, Nat.zero_add, Nat.zero_mod]
    · have e2 : (W - len) % W = W - len := Nat.mod_eq_of_lt (Nat.sub_lt (by omega) (by omega))
      rw [e2]
      exact wrapNext hm hf hlt hy

/-- The encoder with its pointers and the encoder by rows and chunks write the same, for every bitmap that holds the page. -/
theorem bmpToPwg_refines (p : Params) (page : Nat) (bmp junk : Bytes)
    (hm : p.heightPx * rowBytes p.colorMode p.widthPx ≤ bmp.length) (hf : bmp.length < 2 ^ 64) (hw : rowBytes p.colorMode p.widthPx < 2 ^ 31)
    (hj : junk.length = rowBytes p.colorMode p.widthPx) :
    bmpToPwg p page bmp junk = Raster.bmpToPwg p page bmp := by
  obtain ⟨n, hn⟩ := rowBytes_units p.colorMode p.widthPx
  have hf' : bmp.length < W := hf
  have hw' : rowBytes p.colorMode p.widthPx < 2147483648 := hw
  unfold bmpToPwg Raster.bmpToPwg
  dsimp only
  rw [widthBytes_eq, oneChunk_eq]
  cases hh : pageHdr p (isBackside p page) with
  | ok hdr =>
    simp only [Outcome.bind_ok]
    rw [if_neg (show ¬ bmp.length < p.heightPx * rowBytes p.colorMode p.widthPx by omega),
      show rowBytes p.colorMode p.widthPx % W = rowBytes p.colorMode p.widthPx from Nat.mod_eq_of_lt (Nat.lt_trans hw' (by decide))]
    have hlen : (rowsOf bmp p.heightPx (rowBytes p.colorMode p.widthPx) (isBackside p page && p.backVFlip)).length = p.heightPx := by
      simp [rowsOf]
    have key := rowLoop_eq (mem := bmp) (bpc := p.bitsPerColor) (c := unit p.colorMode) (n := n)
      (oneLine := viaInt (if (isBackside p page && p.backVFlip) = true then (W - rowBytes p.colorMode p.widthPx) % W else rowBytes p.colorMode p.widthPx))
      (row0 := if (isBackside p page && p.backVFlip) = true then add p.heightPx (W - 1) * rowBytes p.colorMode p.widthPx % W else 0)
      (hflip := isBackside p page && p.backHFlip)
      (rows := rowsOf bmp p.heightPx (rowBytes p.colorMode p.widthPx) (isBackside p page && p.backVFlip))
      (addr := fun y => (if (isBackside p page && p.backVFlip) = true then p.heightPx - 1 - y else y) * rowBytes p.colorMode p.widthPx)
      (unit_pos _) hf'
      (by
        rw [hlen, ← hn]; intro y hy
        apply rowBytes_mul_lt hm; split <;> omega)
      (by
        intro y hy
        rw [← hn]; simp [rowsOf, rowAt])
      (by rw [hlen]; exact fun y hy => rowPtr _ hm hf' hw' y hy)
      (by rw [hlen]; exact fun y hy => rowNext _ hm hf' hw' y hy)
      (p.heightPx + 1) 0 junk (by omega) (by omega)
    rw [hlen, ← hn] at key
    rw [key, List.drop_zero]
  | throws e => rfl
  | ub => rfl
  | hang => rfl

theorem pageHdr_pwg (p : Params) (backside : Bool) (h : p.format ≠ .URF) : ∃ hdr, pageHdr p backside = .ok hdr := by
  unfold pageHdr makePwgHdr
  rw [if_pos h, widthBytes_eq]
  exact ⟨_, rfl⟩

theorem pageHdr_defined (p : Params) (backside : Bool) : pageHdr p backside ≠ .ub ∧ pageHdr p backside ≠ .hang := by
  by_cases h : p.format = .URF
  · unfold pageHdr makeUrfHdr
    rw [if_neg (by simp [h])]
    by_cases hr : p.hwResW ≠ p.hwResH
    · simp [hr]
    · rw [if_neg hr]
      have h1 : (∃ n, urfColorSpace p.colorMode = .ok n) ∨ ∃ e, urfColorSpace p.colorMode = .throws e := by
        cases p.colorMode <;> simp [urfColorSpace]
      have h2 : (∃ n, urfMediaType p.mediaType = .ok n) ∨ ∃ e, urfMediaType p.mediaType = .throws e := by
        unfold urfMediaType
        split
        · exact Or.inl ⟨_, rfl⟩
        · cases urfMediaTypes.lookup p.mediaType
          · exact Or.inr ⟨_, rfl⟩
          · exact Or.inl ⟨_, rfl⟩
      rcases h1 with ⟨a, h1⟩ | ⟨a, h1⟩ <;> rcases h2 with ⟨b, h2⟩ | ⟨b, h2⟩ <;> simp [h1, h2]
  · obtain ⟨hdr, hh⟩ := pageHdr_pwg p backside h
    simp [hh]

/-- **C98** (the part that holds). With rows of less than 2^31 bytes and a bitmap that holds the page, `bmp_to_pwg` reads nothing outside of the bitmap and
nothing but its own line in the line buffer, writes nothing outside of the buffer, and ends: no outcome is undefined or endless. What it writes is the encoding
by rows and chunks to which the round trips (C01-C11) apply; it does not depend on what the buffer held before (`junk`), nor on bytes
after the page in the bitmap (`more`). -/
theorem C98_memory_partial (p : Params) (page : Nat) (bmp more junk : Bytes)
    (hm : bmp.length = p.heightPx * rowBytes p.colorMode p.widthPx) (hf : (bmp ++ more).length < 2 ^ 64)
    (hw : rowBytes p.colorMode p.widthPx < 2 ^ 31) (hj : junk.length = rowBytes p.colorMode p.widthPx) :
    bmpToPwg p page (bmp ++ more) junk = Raster.bmpToPwg p page bmp ∧
    (p.format ≠ .URF → ∃ out, bmpToPwg p page (bmp ++ more) junk = .ok out) ∧
    (p.format = .URF → (∃ out, bmpToPwg p page (bmp ++ more) junk = .ok out) ∨ (∃ e, bmpToPwg p page (bmp ++ more) junk = .throws e)) := by
  have hl : bmp.length ≤ (bmp ++ more).length := by simp
  have h1 := bmpToPwg_refines p page (bmp ++ more) junk (by omega) hf hw hj
  have hrows : ∀ v, rowsOf (bmp ++ more) p.heightPx (rowBytes p.colorMode p.widthPx) v = rowsOf bmp p.heightPx (rowBytes p.colorMode p.widthPx) v := by
    intro v
    unfold rowsOf
    apply List.map_congr_left
    intro y hy
    have hy := List.mem_range.mp hy
    unfold rowAt
    have hb : (if v = true then p.heightPx - 1 - y else y) * rowBytes p.colorMode p.widthPx + rowBytes p.colorMode p.widthPx ≤ bmp.length :=
      rowBytes_mul_lt (h := p.heightPx) (by omega) _ (by split <;> omega)
    rw [List.drop_append_of_le_length (by omega), List.take_append_of_le_length (by rw [List.length_drop]; omega)]
  have h2 : Raster.bmpToPwg p page (bmp ++ more) = Raster.bmpToPwg p page bmp := by
    unfold Raster.bmpToPwg
    dsimp only
    rw [widthBytes_eq]
    cases pageHdr p (isBackside p page) with
    | ok hdr =>
      simp only [Outcome.bind_ok]
      rw [if_neg (show ¬ bmp.length < p.heightPx * rowBytes p.colorMode p.widthPx by omega),
        if_neg (show ¬ (bmp ++ more).length < p.heightPx * rowBytes p.colorMode p.widthPx by omega), hrows]
    | _ => rfl
  have hbody : ∀ hdr, pageHdr p (isBackside p page) = .ok hdr → ∃ out, Raster.bmpToPwg p page bmp = .ok out := by
    intro hdr hh
    unfold Raster.bmpToPwg
    dsimp only
    rw [widthBytes_eq, hh, oneChunk_eq]
    simp only [Outcome.bind_ok]
    rw [if_neg (show ¬ bmp.length < p.heightPx * rowBytes p.colorMode p.widthPx by omega)]
    have hall : ∀ r ∈ rowsOf bmp p.heightPx (rowBytes p.colorMode p.widthPx) (isBackside p page && p.backVFlip),
        r.length = rowBytes p.colorMode p.widthPx := fun r hr => rowsOf_mem hr (by omega)
    generalize rowsOf bmp p.heightPx (rowBytes p.colorMode p.widthPx) (isBackside p page && p.backVFlip) = rows at hall
    suffices h : ∃ body, encodeRows p.bitsPerColor (unit p.colorMode) (isBackside p page && p.backHFlip) rows = .ok body by
      obtain ⟨body, hb⟩ := h
      exact ⟨_, by rw [hb]; rfl⟩
    fun_induction encodeRows p.bitsPerColor (unit p.colorMode) (isBackside p page && p.backHFlip) rows with
    | case1 => exact ⟨_, rfl⟩
    | case2 this rest r ih =>
      obtain ⟨g1, g2, -⟩ := lineData_ok p (isBackside p page && p.backHFlip) this (hall _ (by simp))
      obtain ⟨n, hn⟩ := rowBytes_units p.colorMode p.widthPx
      obtain ⟨e, he, -⟩ := compressLine_ok (unit p.colorMode) (unit_pos _) n _ (by rw [g2, hall _ (by simp), hn])
      obtain ⟨body, hb⟩ := ih (fun x hx => by
        obtain ⟨m, -, s2, -⟩ := scanRows_spec this rest 0 (by omega)
        exact hall x (by rw [s2]; simp; right; right; exact hx))
      rw [g1]
      simp only [Outcome.bind_ok]
      rw [he, hb]
      exact ⟨_, rfl⟩
  refine ⟨h1.trans h2, ?_, ?_⟩
  · intro hpwg
    rw [h1, h2]
    obtain ⟨hdr, hh⟩ := pageHdr_pwg p (isBackside p page) hpwg
    exact hbody _ hh
  · intro hurf
    rw [h1, h2]
    cases hh : pageHdr p (isBackside p page) with
    | ok hdr => exact Or.inl (hbody _ hh)
    | throws e => right; exact ⟨e, by unfold Raster.bmpToPwg; dsimp only; rw [hh]; rfl⟩
    | ub => exact absurd hh (pageHdr_defined p _).1
    | hang => exact absurd hh (pageHdr_defined p _).2

/-- The back of a sheet of two rows of three gray pixels, turned around, in a bitmap with a byte too many and a buffer with something in it. -/
example :
    let p : Params := { format := .PWG, colorMode := .Gray8, widthPx := 3, heightPx := 2, duplexMode := .TwoSidedLongEdge, backXformMode := .Rotated }
    p.heightPx = 2 ∧ rowBytes p.colorMode p.widthPx = 3 ∧ (p.backHFlip && p.backVFlip) = true ∧
    (match bmpToPwg p 2 [1, 2, 3, 4, 4, 5, 99] [77, 77, 77] with
      | .ok out => decide (out.drop 1796 = [0, 0, 5, 1, 4, 0, 254, 3, 2, 1])
      | _ => false) = true := by
  decide +kernel

/-! ## Where it does not hold -/

/-- A page of two rows of `w` gray pixels. -/
def wide (w : Nat) : Params := { format := .PWG, colorMode := .Gray8, widthPx := w, heightPx := 2 }

theorem wide_bytes (w : Nat) : rowBytes (wide w).colorMode (wide w).widthPx = w := by
  show (w * 8 + 7) / 8 = w
  omega

/-- What there is to show of a page of two rows: the header, then the loop over the rows. -/
theorem wide_eq (w : Nat) (hw : w < W) (bmp junk : Bytes) : ∃ hdr, pageHdr (wide w) false = .ok hdr ∧
    bmpToPwg (wide w) 1 bmp junk = (rowLoop bmp 8 1 2 w (viaInt w) 0 false 3 0 junk >>= fun body => .ok (hdr ++ body)) := by
  obtain ⟨hdr, hh⟩ := pageHdr_pwg (wide w) false (by simp [wide])
  refine ⟨hdr, hh, ?_⟩
  have hb : isBackside (wide w) 1 = false := rfl
  unfold bmpToPwg
  dsimp only
  rw [hb, hh, widthBytes_eq, wide_bytes]
  simp only [Outcome.bind_ok, Bool.false_and, Bool.false_eq_true, if_false, Outcome.pure_eq, Nat.mod_eq_of_lt hw]
  rw [show oneChunk (wide w) = 1 by rw [oneChunk_eq]; simp [wide, unit, bitsPerPixel], show (wide w).bitsPerColor = 8 from rfl, show (wide w).heightPx = 2 from rfl]

/-- **C98 is false with rows of 2^31 bytes.** The `int` then holds -2^31 for the distance of the lines, and the second row is sought that far before
the bitmap. -/
theorem C98_outside_false (bmp junk : Bytes) (hm : bmp.length = (wide 2147483648).heightPx * rowBytes (wide 2147483648).colorMode (wide 2147483648).widthPx) :
    bmpToPwg (wide 2147483648) 1 bmp junk = .ub := by
  rw [wide_bytes] at hm
  have hm : bmp.length = 4294967296 := hm
  obtain ⟨hdr, -, h⟩ := wide_eq 2147483648 (by decide) bmp junk
  have hv : viaInt 2147483648 = 18446744071562067968 := by decide
  rw [h, hv]
  have h1 : rowScan bmp 2 2147483648 18446744071562067968 0 256 0 18446744071562067968 0 = .ub := by
    unfold rowScan same
    rw [if_pos (by omega), readAt_eq (by omega)]
    have : readAt bmp 18446744071562067968 2147483648 = .ub := by
      unfold readAt; rw [if_neg (by omega), if_neg (by omega)]
    simp [this]
  have h2 : rowLoop bmp 8 1 2 2147483648 18446744071562067968 0 false 3 0 junk = .ub := by
    unfold rowLoop
    rw [if_pos (by omega)]
    have ha : add 0 (0 * 18446744071562067968 % W) = 0 := by decide
    have hb : add 0 18446744071562067968 = 18446744071562067968 := by decide
    simp only [ha, hb, h1, Outcome.bind_ub]
  rw [h2]
  rfl

/-- With rows of 2^32 bytes the distance of the lines is 0: the first row is compared to itself, and both rows are written as the first one. -/
theorem wide_lost (bmp junk : Bytes) (hm : bmp.length = 8589934592) : ∃ hdr body, pageHdr (wide 4294967296) false = .ok hdr ∧
    Raster.compressLine 1 (bmp.take 4294967296) = .ok body ∧ bmpToPwg (wide 4294967296) 1 bmp junk = .ok (hdr ++ 1 :: body) := by
  obtain ⟨hdr, hh, h⟩ := wide_eq 4294967296 (by decide) bmp junk
  obtain ⟨body, hb, -⟩ := compressLine_ok 1 (by omega) 4294967296 (bmp.take 4294967296) (by rw [List.length_take]; omega)
  refine ⟨hdr, body, hh, hb, ?_⟩
  have hv : viaInt 4294967296 = 0 := by decide
  have ha : add 0 0 = 0 := by decide
  have hz : ∀ y, add 0 (y * 0 % W) = 0 := by intro y; rw [Nat.mul_zero, Nat.zero_mod]; exact ha
  have hs : rowScan bmp 2 4294967296 0 0 256 0 0 0 = .ok (1, 1) := by
    unfold rowScan same
    rw [if_pos (by omega), readAt_eq (by omega)]
    simp only [Outcome.bind_ok, Outcome.pure_eq, decide_true, if_true, ha]
    rw [if_neg (by omega)]
    unfold rowScan
    rw [if_neg (by omega)]
  have hc : compressLine bmp 0 4294967296 1 = .ok body := by
    have := compressLine_eq (mem := bmp) (c := 1) (raw := 0) (n := 4294967296) (by omega) (by rw [hm]; decide) (by omega)
    rw [Nat.mul_one, List.drop_zero, hb] at this
    exact this
  have hp : putLine bmp 8 1 4294967296 false 0 junk = .ok (body, junk) := by
    unfold putLine
    simp [hc]
  rw [h, hv]
  have hl : rowLoop bmp 8 1 2 4294967296 0 0 false 3 0 junk = .ok (1 :: body) := by
    unfold rowLoop
    rw [if_pos (by omega)]
    simp only [hz, ha, hs, hp, Outcome.bind_ok]
    unfold rowLoop
    rw [if_neg (by omega)]
    simp
  rw [hl]
  rfl

/-- **C98 is false with rows of 2^32 bytes**: all pages with the same first row come out the same, and none that has two different rows as itself. -/
theorem C98_lost_false :
    (∀ bmp bmp' junk junk' : Bytes, bmp.length = 8589934592 → bmp'.length = 8589934592 → bmp.take 4294967296 = bmp'.take 4294967296 →
      bmpToPwg (wide 4294967296) 1 bmp junk = bmpToPwg (wide 4294967296) 1 bmp' junk') ∧
    (∀ bmp junk : Bytes, bmp.length = 8589934592 → bmp.take 4294967296 ≠ bmp.drop 4294967296 →
      bmpToPwg (wide 4294967296) 1 bmp junk ≠ Raster.bmpToPwg (wide 4294967296) 1 bmp) := by
  constructor
  · intro bmp bmp' junk junk' h1 h2 h3
    obtain ⟨hdr, body, a1, a2, a3⟩ := wide_lost bmp junk h1
    obtain ⟨hdr', body', b1, b2, b3⟩ := wide_lost bmp' junk' h2
    rw [a1] at b1; injection b1 with b1
    rw [h3, b2] at a2; injection a2 with a2
    rw [a3, b3, b1, a2]
  · intro bmp junk h1 h2
    obtain ⟨hdr, body, a1, a2, a3⟩ := wide_lost bmp junk h1
    rw [a3]
    intro he
    have hb : isBackside (wide 4294967296) 1 = false := rfl
    unfold Raster.bmpToPwg at he
    dsimp only at he
    rw [widthBytes_eq, hb, a1, wide_bytes] at he
    simp only [Outcome.bind_ok] at he
    rw [if_neg (show ¬ bmp.length < (wide 4294967296).heightPx * 4294967296 by show ¬ bmp.length < 2 * 4294967296; omega)] at he
    have hr : rowsOf bmp (wide 4294967296).heightPx 4294967296 (false && (wide 4294967296).backVFlip) =
        [bmp.take 4294967296, bmp.drop 4294967296] := by
      show rowsOf bmp 2 4294967296 false = _
      simp only [rowsOf, rowAt, List.range_succ, List.range_zero, List.nil_append, List.cons_append, List.map_cons, List.map_nil]
      rw [show ((if false = true then 2 - 1 - 0 else 0) * 4294967296) = 0 by decide, List.drop_zero,
        show ((if false = true then 2 - 1 - 1 else 1) * 4294967296) = 4294967296 by decide,
        List.take_of_length_le (show (bmp.drop 4294967296).length ≤ 4294967296 by rw [List.length_drop]; omega)]
    rw [hr, encodeRows] at he
    simp only [scanRows, h2, if_false] at he
    rw [eq_comm, Outcome.bind_eq_ok] at he
    obtain ⟨x, hx, he⟩ := he
    rw [Outcome.bind_eq_ok] at hx
    obtain ⟨l, -, hx⟩ := hx
    rw [Outcome.bind_eq_ok] at hx
    obtain ⟨b, -, hx⟩ := hx
    rw [Outcome.bind_eq_ok] at hx
    obtain ⟨m, -, hx⟩ := hx
    injection hx with hx
    injection he with he
    have := List.append_cancel_left he
    rw [← hx] at this
    injection this with this
    exact absurd this (by decide)

/-- There are such pages. -/
example : ∃ bmp : Bytes, bmp.length = 8589934592 ∧ bmp.take 4294967296 ≠ bmp.drop 4294967296 := by
  refine ⟨List.replicate 4294967296 0 ++ List.replicate 4294967296 1, ?_, ?_⟩
  · rw [List.length_append, List.length_replicate, List.length_replicate]
  · intro h
    have hl : (List.replicate 4294967296 (0 : UInt8)).length = 4294967296 := List.length_replicate
    rw [List.take_append_of_le_length (by omega), List.take_of_length_le (by omega)] at h
    have h2 : (List.replicate 4294967296 (0 : UInt8) ++ List.replicate 4294967296 1).drop 4294967296 = List.replicate 4294967296 1 := by
      rw [List.drop_append_of_le_length (by omega), List.drop_eq_nil_of_le (by omega), List.nil_append]
    rw [h2] at h
    have : (0 : UInt8) ∈ List.replicate 4294967296 (1 : UInt8) := by rw [← h]; exact List.mem_replicate.mpr ⟨by omega, rfl⟩
    exact absurd (List.eq_of_mem_replicate this) (by decide)

end Verif.Raster.Ptr
