import Verif.Props.CondFormula
/-! The formulas of the date rules, computed step by step (C56). -/
namespace Verif
open Spec

/-- Tokenizing a piece of text from between tokens. -/
def lexRun (m : LexMode) (done : List FTok) : List Char → Option (LexMode × List FTok)
  | [] => some (m, done)
  | c :: cs =>
    match lexStep m c with
    | none => none
    | some (out, m') => lexRun m' (done ++ out) cs

theorem lexRun_done (m : LexMode) (done : List FTok) (s : List Char) :
    lexRun m done s = (lexRun m [] s).map fun p => (p.1, done ++ p.2) := by
  induction s generalizing m done with
  | nil => simp [lexRun]
  | cons c s ih =>
    unfold lexRun
    cases lexStep m c with
    | none => rfl
    | some p =>
      obtain ⟨out, m'⟩ := p
      dsimp only
      rw [ih m' (done ++ out), ih m' ([] ++ out)]
      cases lexRun m' [] s <;> simp

theorem lexFrom_append (m : LexMode) (done : List FTok) (s t : List Char) :
    lexFrom m done (s ++ t) = match lexRun m done s with
      | none => none
      | some (m', d) => lexFrom m' d t := by
  induction s generalizing m done with
  | nil => rfl
  | cons c s ih =>
    rw [List.cons_append, lexFrom, lexRun]
    cases lexStep m c with
    | none => rfl
    | some p =>
      dsimp only
      exact ih _ _

/-- A literal piece of a formula. -/
theorem lex_piece {s : List Char} {m : LexMode} {ts : List FTok} (h : lexRun .start [] s = some (m, ts))
    (done : List FTok) (t : List Char) : lexFrom .start done (s ++ t) = lexFrom m (done ++ ts) t := by
  rw [lexFrom_append, lexRun_done, h]
  rfl

/-- A literal piece at the end. -/
theorem lex_last {s : List Char} {m : LexMode} {ts us : List FTok} (h : lexRun .start [] s = some (m, ts))
    (he : lexEnd m = some us) (done : List FTok) : lexFrom .start done s = some (done ++ ts ++ us) := by
  have := lex_piece h done []
  rw [List.append_nil] at this
  rw [this]
  show (lexEnd m).map _ = _
  rw [he]
  rfl

/-- A reference before an operator. -/
theorem lex_ref (a : List Char) (ha : a.all wordChar = true) (h0 : a ≠ []) (done : List FTok) (c : Char) (t : List Char)
    (hc : wordChar c = false) :
    lexFrom .start done (a ++ c :: t) = lexFrom .start (done ++ [.word a]) (c :: t) := by
  rw [lex_word_start _ _ _ ha h0]
  unfold lexFrom
  have h1 : lexStep (.word a) c = lexAfter (.word a) c := by
    show (if wordChar c then _ else _) = _
    rw [if_neg (by simp [hc])]
  rw [h1]
  show (match (lexStart c).map _ with | none => none | some (out, m') => lexFrom m' (done ++ out) t) = 
    match lexStart c with | none => none | some (out, m') => lexFrom m' (done ++ [.word a] ++ out) t
  cases lexStart c with
  | none => rfl
  | some p => simp

theorem lex_refs (a : List Char) (ha : a.all wordChar = true) (h0 : a ≠ []) (done : List FTok) (s t : List Char)
    (hc : (s.head?.map wordChar) = some false) :
    lexFrom .start done (a ++ (s ++ t)) = lexFrom .start (done ++ [.word a]) (s ++ t) := by
  cases s with
  | nil => simp at hc
  | cons c s => exact lex_ref a ha h0 done c (s ++ t) (by simpa using hc)

theorem lex_ref_last (a : List Char) (ha : a.all wordChar = true) (h0 : a ≠ []) (done : List FTok) (s : List Char)
    (hc : (s.head?.map wordChar) = some false) :
    lexFrom .start done (a ++ s) = lexFrom .start (done ++ [.word a]) s := by
  have := lex_refs a ha h0 done s [] hc
  simpa using this


private theorem piece0 : lexRun .start [] "FLOOR(".toList = some (.start, [.word "FLOOR".toList, .op '(']) := by
  decide +kernel

private theorem piece1 : lexRun .start [] ",1)=TODAY()-1".toList = some ((.word "1".toList), [.op ',', .word
  "1".toList, .op ')', .op '=', .word "TODAY".toList, .op '(', .op ')', .op '-']) := by
  decide +kernel

private theorem piece2 : lexRun .start [] ",1)=TODAY()".toList = some (.start, [.op ',', .word "1".toList, .op ')',
  .op '=', .word "TODAY".toList, .op '(', .op ')']) := by
  decide +kernel

private theorem piece3 : lexRun .start [] ",1)=TODAY()+1".toList = some ((.word "1".toList), [.op ',', .word
  "1".toList, .op ')', .op '=', .word "TODAY".toList, .op '(', .op ')', .op '+']) := by
  decide +kernel

private theorem piece4 : lexRun .start [] "AND(TODAY()-FLOOR(".toList = some (.start, [.word "AND".toList, .op '(',
  .word "TODAY".toList, .op '(', .op ')', .op '-', .word "FLOOR".toList, .op '(']) := by
  decide +kernel

private theorem piece5 : lexRun .start [] ",1)<=6,FLOOR(".toList = some (.start, [.op ',', .word "1".toList, .op ')',
  .le, .word "6".toList, .op ',', .word "FLOOR".toList, .op '(']) := by
  decide +kernel

private theorem piece6 : lexRun .start [] ",1)<=TODAY())".toList = some (.start, [.op ',', .word "1".toList, .op ')',
  .le, .word "TODAY".toList, .op '(', .op ')', .op ')']) := by
  decide +kernel

private theorem piece7 : lexRun .start [] "AND(TODAY()-ROUNDDOWN(".toList = some (.start, [.word "AND".toList, .op
  '(', .word "TODAY".toList, .op '(', .op ')', .op '-', .word "ROUNDDOWN".toList, .op '(']) := by
  decide +kernel

private theorem piece8 : lexRun .start [] ",0)>=(WEEKDAY(TODAY())),TODAY()-ROUNDDOWN(".toList = some (.start, [.op
  ',', .word "0".toList, .op ')', .ge, .op '(', .word "WEEKDAY".toList, .op '(', .word "TODAY".toList, .op '(', .op
  ')', .op ')', .op ')', .op ',', .word "TODAY".toList, .op '(', .op ')', .op '-', .word "ROUNDDOWN".toList, .op '('])
  := by
  decide +kernel

private theorem piece9 : lexRun .start [] ",0)<(WEEKDAY(TODAY())+7))".toList = some (.start, [.op ',', .word
  "0".toList, .op ')', .op '<', .op '(', .word "WEEKDAY".toList, .op '(', .word "TODAY".toList, .op '(', .op ')', .op
  ')', .op '+', .word "7".toList, .op ')', .op ')']) := by
  decide +kernel

private theorem piece10 : lexRun .start [] ",0)<=WEEKDAY(TODAY())-1,ROUNDDOWN(".toList = some (.start, [.op ',', .word
  "0".toList, .op ')', .le, .word "WEEKDAY".toList, .op '(', .word "TODAY".toList, .op '(', .op ')', .op ')', .op '-',
  .word "1".toList, .op ',', .word "ROUNDDOWN".toList, .op '(']) := by
  decide +kernel

private theorem piece11 : lexRun .start [] ",0)-TODAY()<=7-WEEKDAY(TODAY()))".toList = some (.start, [.op ',', .word
  "0".toList, .op ')', .op '-', .word "TODAY".toList, .op '(', .op ')', .le, .word "7".toList, .op '-', .word
  "WEEKDAY".toList, .op '(', .word "TODAY".toList, .op '(', .op ')', .op ')', .op ')']) := by
  decide +kernel

private theorem piece12 : lexRun .start [] "AND(ROUNDDOWN(".toList = some (.start, [.word "AND".toList, .op '(', .word
  "ROUNDDOWN".toList, .op '(']) := by
  decide +kernel

private theorem piece13 : lexRun .start [] ",0)-TODAY()>(7-WEEKDAY(TODAY())),ROUNDDOWN(".toList = some (.start, [.op
  ',', .word "0".toList, .op ')', .op '-', .word "TODAY".toList, .op '(', .op ')', .op '>', .op '(', .word "7".toList,
  .op '-', .word "WEEKDAY".toList, .op '(', .word "TODAY".toList, .op '(', .op ')', .op ')', .op ')', .op ',', .word
  "ROUNDDOWN".toList, .op '(']) := by
  decide +kernel

private theorem piece14 : lexRun .start [] ",0)-TODAY()<(15-WEEKDAY(TODAY())))".toList = some (.start, [.op ',', .word
  "0".toList, .op ')', .op '-', .word "TODAY".toList, .op '(', .op ')', .op '<', .op '(', .word "15".toList, .op '-',
  .word "WEEKDAY".toList, .op '(', .word "TODAY".toList, .op '(', .op ')', .op ')', .op ')', .op ')']) := by
  decide +kernel

private theorem piece15 : lexRun .start [] "AND(MONTH(".toList = some (.start, [.word "AND".toList, .op '(', .word
  "MONTH".toList, .op '(']) := by
  decide +kernel

private theorem piece16 : lexRun .start [] ")=MONTH(TODAY())-1,OR(YEAR(".toList = some (.start, [.op ')', .op '=',
  .word "MONTH".toList, .op '(', .word "TODAY".toList, .op '(', .op ')', .op ')', .op '-', .word "1".toList, .op ',',
  .word "OR".toList, .op '(', .word "YEAR".toList, .op '(']) := by
  decide +kernel

private theorem piece17 : lexRun .start [] ")=YEAR(TODAY()),AND(MONTH(".toList = some (.start, [.op ')', .op '=',
  .word "YEAR".toList, .op '(', .word "TODAY".toList, .op '(', .op ')', .op ')', .op ',', .word "AND".toList, .op '(',
  .word "MONTH".toList, .op '(']) := by
  decide +kernel

private theorem piece18 : lexRun .start [] ")=1,YEAR(".toList = some (.start, [.op ')', .op '=', .word "1".toList, .op
  ',', .word "YEAR".toList, .op '(']) := by
  decide +kernel

private theorem piece19 : lexRun .start [] ")=YEAR(TODAY())-1)))".toList = some (.start, [.op ')', .op '=', .word
  "YEAR".toList, .op '(', .word "TODAY".toList, .op '(', .op ')', .op ')', .op '-', .word "1".toList, .op ')', .op
  ')', .op ')']) := by
  decide +kernel

private theorem piece20 : lexRun .start [] ")=MONTH(TODAY()),YEAR(".toList = some (.start, [.op ')', .op '=', .word
  "MONTH".toList, .op '(', .word "TODAY".toList, .op '(', .op ')', .op ')', .op ',', .word "YEAR".toList, .op '(']) :=
  by
  decide +kernel

private theorem piece21 : lexRun .start [] ")=YEAR(TODAY()))".toList = some (.start, [.op ')', .op '=', .word
  "YEAR".toList, .op '(', .word "TODAY".toList, .op '(', .op ')', .op ')', .op ')']) := by
  decide +kernel

private theorem piece22 : lexRun .start [] ")=MONTH(TODAY())+1,OR(YEAR(".toList = some (.start, [.op ')', .op '=',
  .word "MONTH".toList, .op '(', .word "TODAY".toList, .op '(', .op ')', .op ')', .op '+', .word "1".toList, .op ',',
  .word "OR".toList, .op '(', .word "YEAR".toList, .op '(']) := by
  decide +kernel

private theorem piece23 : lexRun .start [] ")=12,YEAR(".toList = some (.start, [.op ')', .op '=', .word "12".toList,
  .op ',', .word "YEAR".toList, .op '(']) := by
  decide +kernel

private theorem piece24 : lexRun .start [] ")=YEAR(TODAY())+1)))".toList = some (.start, [.op ')', .op '=', .word
  "YEAR".toList, .op '(', .word "TODAY".toList, .op '(', .op ')', .op ')', .op '+', .word "1".toList, .op ')', .op
  ')', .op ')']) := by
  decide +kernel

theorem lex_yesterday (a : List Char) (ha : a.all wordChar = true) (h0 : a ≠ []) :
    lexFrom .start [] (CondDate.formula a .yesterday) = some [.word "FLOOR".toList, .op '(', .word a, .op ',', .word
      "1".toList, .op ')', .op '=', .word "TODAY".toList, .op '(', .op ')', .op '-', .word "1".toList] := by
  unfold CondDate.formula
  simp only [List.append_assoc]
  rw [lex_piece piece0]
  rw [lex_ref_last _ ha h0 _ _ (by decide +kernel)]
  rw [lex_last piece1 rfl]
  rfl

theorem eval_yesterday (e : FEnv) (a : List Char) (ha : a.all wordChar = true) (h0 : a ≠ []) :
    evalFormula e (CondDate.formula a .yesterday) =
      some (compareVal e .eq (callFn e "FLOOR".toList [(wordVal e a), (wordVal e "1".toList)]) (arith true (callFn e
        "TODAY".toList []) (wordVal e "1".toList))) := by
  unfold evalFormula
  rw [lex_yesterday a ha h0]
  rfl

theorem lex_today (a : List Char) (ha : a.all wordChar = true) (h0 : a ≠ []) :
    lexFrom .start [] (CondDate.formula a .today) = some [.word "FLOOR".toList, .op '(', .word a, .op ',', .word
      "1".toList, .op ')', .op '=', .word "TODAY".toList, .op '(', .op ')'] := by
  unfold CondDate.formula
  simp only [List.append_assoc]
  rw [lex_piece piece0]
  rw [lex_ref_last _ ha h0 _ _ (by decide +kernel)]
  rw [lex_last piece2 rfl]
  rfl

theorem eval_today (e : FEnv) (a : List Char) (ha : a.all wordChar = true) (h0 : a ≠ []) :
    evalFormula e (CondDate.formula a .today) =
      some (compareVal e .eq (callFn e "FLOOR".toList [(wordVal e a), (wordVal e "1".toList)]) (callFn e
        "TODAY".toList [])) := by
  unfold evalFormula
  rw [lex_today a ha h0]
  rfl

theorem lex_tomorrow (a : List Char) (ha : a.all wordChar = true) (h0 : a ≠ []) :
    lexFrom .start [] (CondDate.formula a .tomorrow) = some [.word "FLOOR".toList, .op '(', .word a, .op ',', .word
      "1".toList, .op ')', .op '=', .word "TODAY".toList, .op '(', .op ')', .op '+', .word "1".toList] := by
  unfold CondDate.formula
  simp only [List.append_assoc]
  rw [lex_piece piece0]
  rw [lex_ref_last _ ha h0 _ _ (by decide +kernel)]
  rw [lex_last piece3 rfl]
  rfl

theorem eval_tomorrow (e : FEnv) (a : List Char) (ha : a.all wordChar = true) (h0 : a ≠ []) :
    evalFormula e (CondDate.formula a .tomorrow) =
      some (compareVal e .eq (callFn e "FLOOR".toList [(wordVal e a), (wordVal e "1".toList)]) (arith false (callFn e
        "TODAY".toList []) (wordVal e "1".toList))) := by
  unfold evalFormula
  rw [lex_tomorrow a ha h0]
  rfl

theorem lex_last7Days (a : List Char) (ha : a.all wordChar = true) (h0 : a ≠ []) :
    lexFrom .start [] (CondDate.formula a .last7Days) = some [.word "AND".toList, .op '(', .word "TODAY".toList, .op
      '(', .op ')', .op '-', .word "FLOOR".toList, .op '(', .word a, .op ',', .word "1".toList, .op ')', .le, .word
      "6".toList, .op ',', .word "FLOOR".toList, .op '(', .word a, .op ',', .word "1".toList, .op ')', .le, .word
      "TODAY".toList, .op '(', .op ')', .op ')'] := by
  unfold CondDate.formula
  simp only [List.append_assoc]
  rw [lex_piece piece4]
  rw [lex_refs _ ha h0 _ _ _ (by decide +kernel)]
  rw [lex_piece piece5]
  rw [lex_ref_last _ ha h0 _ _ (by decide +kernel)]
  rw [lex_last piece6 rfl]
  rfl

theorem eval_last7Days (e : FEnv) (a : List Char) (ha : a.all wordChar = true) (h0 : a ≠ []) :
    evalFormula e (CondDate.formula a .last7Days) =
      some (callFn e "AND".toList [(compareVal e .le (arith true (callFn e "TODAY".toList []) (callFn e "FLOOR".toList
        [(wordVal e a), (wordVal e "1".toList)])) (wordVal e "6".toList)), (compareVal e .le (callFn e "FLOOR".toList
        [(wordVal e a), (wordVal e "1".toList)]) (callFn e "TODAY".toList []))]) := by
  unfold evalFormula
  rw [lex_last7Days a ha h0]
  rfl

theorem lex_lastWeek (a : List Char) (ha : a.all wordChar = true) (h0 : a ≠ []) :
    lexFrom .start [] (CondDate.formula a .lastWeek) = some [.word "AND".toList, .op '(', .word "TODAY".toList, .op
      '(', .op ')', .op '-', .word "ROUNDDOWN".toList, .op '(', .word a, .op ',', .word "0".toList, .op ')', .ge, .op
      '(', .word "WEEKDAY".toList, .op '(', .word "TODAY".toList, .op '(', .op ')', .op ')', .op ')', .op ',', .word
      "TODAY".toList, .op '(', .op ')', .op '-', .word "ROUNDDOWN".toList, .op '(', .word a, .op ',', .word
      "0".toList, .op ')', .op '<', .op '(', .word "WEEKDAY".toList, .op '(', .word "TODAY".toList, .op '(', .op ')',
      .op ')', .op '+', .word "7".toList, .op ')', .op ')'] := by
  unfold CondDate.formula
  simp only [List.append_assoc]
  rw [lex_piece piece7]
  rw [lex_refs _ ha h0 _ _ _ (by decide +kernel)]
  rw [lex_piece piece8]
  rw [lex_ref_last _ ha h0 _ _ (by decide +kernel)]
  rw [lex_last piece9 rfl]
  rfl

theorem eval_lastWeek (e : FEnv) (a : List Char) (ha : a.all wordChar = true) (h0 : a ≠ []) :
    evalFormula e (CondDate.formula a .lastWeek) =
      some (callFn e "AND".toList [(compareVal e .ge (arith true (callFn e "TODAY".toList []) (callFn e
        "ROUNDDOWN".toList [(wordVal e a), (wordVal e "0".toList)])) (callFn e "WEEKDAY".toList [(callFn e
        "TODAY".toList [])])), (compareVal e .lt (arith true (callFn e "TODAY".toList []) (callFn e "ROUNDDOWN".toList
        [(wordVal e a), (wordVal e "0".toList)])) (arith false (callFn e "WEEKDAY".toList [(callFn e "TODAY".toList
        [])]) (wordVal e "7".toList)))]) := by
  unfold evalFormula
  rw [lex_lastWeek a ha h0]
  rfl

theorem lex_thisWeek (a : List Char) (ha : a.all wordChar = true) (h0 : a ≠ []) :
    lexFrom .start [] (CondDate.formula a .thisWeek) = some [.word "AND".toList, .op '(', .word "TODAY".toList, .op
      '(', .op ')', .op '-', .word "ROUNDDOWN".toList, .op '(', .word a, .op ',', .word "0".toList, .op ')', .le,
      .word "WEEKDAY".toList, .op '(', .word "TODAY".toList, .op '(', .op ')', .op ')', .op '-', .word "1".toList, .op
      ',', .word "ROUNDDOWN".toList, .op '(', .word a, .op ',', .word "0".toList, .op ')', .op '-', .word
      "TODAY".toList, .op '(', .op ')', .le, .word "7".toList, .op '-', .word "WEEKDAY".toList, .op '(', .word
      "TODAY".toList, .op '(', .op ')', .op ')', .op ')'] := by
  unfold CondDate.formula
  simp only [List.append_assoc]
  rw [lex_piece piece7]
  rw [lex_refs _ ha h0 _ _ _ (by decide +kernel)]
  rw [lex_piece piece10]
  rw [lex_ref_last _ ha h0 _ _ (by decide +kernel)]
  rw [lex_last piece11 rfl]
  rfl

theorem eval_thisWeek (e : FEnv) (a : List Char) (ha : a.all wordChar = true) (h0 : a ≠ []) :
    evalFormula e (CondDate.formula a .thisWeek) =
      some (callFn e "AND".toList [(compareVal e .le (arith true (callFn e "TODAY".toList []) (callFn e
        "ROUNDDOWN".toList [(wordVal e a), (wordVal e "0".toList)])) (arith true (callFn e "WEEKDAY".toList [(callFn e
        "TODAY".toList [])]) (wordVal e "1".toList))), (compareVal e .le (arith true (callFn e "ROUNDDOWN".toList
        [(wordVal e a), (wordVal e "0".toList)]) (callFn e "TODAY".toList [])) (arith true (wordVal e "7".toList)
        (callFn e "WEEKDAY".toList [(callFn e "TODAY".toList [])])))]) := by
  unfold evalFormula
  rw [lex_thisWeek a ha h0]
  rfl

theorem lex_nextWeek (a : List Char) (ha : a.all wordChar = true) (h0 : a ≠ []) :
    lexFrom .start [] (CondDate.formula a .nextWeek) = some [.word "AND".toList, .op '(', .word "ROUNDDOWN".toList,
      .op '(', .word a, .op ',', .word "0".toList, .op ')', .op '-', .word "TODAY".toList, .op '(', .op ')', .op '>',
      .op '(', .word "7".toList, .op '-', .word "WEEKDAY".toList, .op '(', .word "TODAY".toList, .op '(', .op ')', .op
      ')', .op ')', .op ',', .word "ROUNDDOWN".toList, .op '(', .word a, .op ',', .word "0".toList, .op ')', .op '-',
      .word "TODAY".toList, .op '(', .op ')', .op '<', .op '(', .word "15".toList, .op '-', .word "WEEKDAY".toList,
      .op '(', .word "TODAY".toList, .op '(', .op ')', .op ')', .op ')', .op ')'] := by
  unfold CondDate.formula
  simp only [List.append_assoc]
  rw [lex_piece piece12]
  rw [lex_refs _ ha h0 _ _ _ (by decide +kernel)]
  rw [lex_piece piece13]
  rw [lex_ref_last _ ha h0 _ _ (by decide +kernel)]
  rw [lex_last piece14 rfl]
  rfl

theorem eval_nextWeek (e : FEnv) (a : List Char) (ha : a.all wordChar = true) (h0 : a ≠ []) :
    evalFormula e (CondDate.formula a .nextWeek) =
      some (callFn e "AND".toList [(compareVal e .gt (arith true (callFn e "ROUNDDOWN".toList [(wordVal e a), (wordVal
        e "0".toList)]) (callFn e "TODAY".toList [])) (arith true (wordVal e "7".toList) (callFn e "WEEKDAY".toList
        [(callFn e "TODAY".toList [])]))), (compareVal e .lt (arith true (callFn e "ROUNDDOWN".toList [(wordVal e a),
        (wordVal e "0".toList)]) (callFn e "TODAY".toList [])) (arith true (wordVal e "15".toList) (callFn e
        "WEEKDAY".toList [(callFn e "TODAY".toList [])])))]) := by
  unfold evalFormula
  rw [lex_nextWeek a ha h0]
  rfl

theorem lex_lastMonth (a : List Char) (ha : a.all wordChar = true) (h0 : a ≠ []) :
    lexFrom .start [] (CondDate.formula a .lastMonth) = some [.word "AND".toList, .op '(', .word "MONTH".toList, .op
      '(', .word a, .op ')', .op '=', .word "MONTH".toList, .op '(', .word "TODAY".toList, .op '(', .op ')', .op ')',
      .op '-', .word "1".toList, .op ',', .word "OR".toList, .op '(', .word "YEAR".toList, .op '(', .word a, .op ')',
      .op '=', .word "YEAR".toList, .op '(', .word "TODAY".toList, .op '(', .op ')', .op ')', .op ',', .word
      "AND".toList, .op '(', .word "MONTH".toList, .op '(', .word a, .op ')', .op '=', .word "1".toList, .op ',',
      .word "YEAR".toList, .op '(', .word a, .op ')', .op '=', .word "YEAR".toList, .op '(', .word "TODAY".toList, .op
      '(', .op ')', .op ')', .op '-', .word "1".toList, .op ')', .op ')', .op ')'] := by
  unfold CondDate.formula
  simp only [List.append_assoc]
  rw [lex_piece piece15]
  rw [lex_refs _ ha h0 _ _ _ (by decide +kernel)]
  rw [lex_piece piece16]
  rw [lex_refs _ ha h0 _ _ _ (by decide +kernel)]
  rw [lex_piece piece17]
  rw [lex_refs _ ha h0 _ _ _ (by decide +kernel)]
  rw [lex_piece piece18]
  rw [lex_ref_last _ ha h0 _ _ (by decide +kernel)]
  rw [lex_last piece19 rfl]
  rfl

theorem eval_lastMonth (e : FEnv) (a : List Char) (ha : a.all wordChar = true) (h0 : a ≠ []) :
    evalFormula e (CondDate.formula a .lastMonth) =
      some (callFn e "AND".toList [(compareVal e .eq (callFn e "MONTH".toList [(wordVal e a)]) (arith true (callFn e
        "MONTH".toList [(callFn e "TODAY".toList [])]) (wordVal e "1".toList))), (callFn e "OR".toList [(compareVal e
        .eq (callFn e "YEAR".toList [(wordVal e a)]) (callFn e "YEAR".toList [(callFn e "TODAY".toList [])])), (callFn
        e "AND".toList [(compareVal e .eq (callFn e "MONTH".toList [(wordVal e a)]) (wordVal e "1".toList)),
        (compareVal e .eq (callFn e "YEAR".toList [(wordVal e a)]) (arith true (callFn e "YEAR".toList [(callFn e
        "TODAY".toList [])]) (wordVal e "1".toList)))])])]) := by
  unfold evalFormula
  rw [lex_lastMonth a ha h0]
  rfl

theorem lex_thisMonth (a : List Char) (ha : a.all wordChar = true) (h0 : a ≠ []) :
    lexFrom .start [] (CondDate.formula a .thisMonth) = some [.word "AND".toList, .op '(', .word "MONTH".toList, .op
      '(', .word a, .op ')', .op '=', .word "MONTH".toList, .op '(', .word "TODAY".toList, .op '(', .op ')', .op ')',
      .op ',', .word "YEAR".toList, .op '(', .word a, .op ')', .op '=', .word "YEAR".toList, .op '(', .word
      "TODAY".toList, .op '(', .op ')', .op ')', .op ')'] := by
  unfold CondDate.formula
  simp only [List.append_assoc]
  rw [lex_piece piece15]
  rw [lex_refs _ ha h0 _ _ _ (by decide +kernel)]
  rw [lex_piece piece20]
  rw [lex_ref_last _ ha h0 _ _ (by decide +kernel)]
  rw [lex_last piece21 rfl]
  rfl

theorem eval_thisMonth (e : FEnv) (a : List Char) (ha : a.all wordChar = true) (h0 : a ≠ []) :
    evalFormula e (CondDate.formula a .thisMonth) =
      some (callFn e "AND".toList [(compareVal e .eq (callFn e "MONTH".toList [(wordVal e a)]) (callFn e
        "MONTH".toList [(callFn e "TODAY".toList [])])), (compareVal e .eq (callFn e "YEAR".toList [(wordVal e a)])
        (callFn e "YEAR".toList [(callFn e "TODAY".toList [])]))]) := by
  unfold evalFormula
  rw [lex_thisMonth a ha h0]
  rfl

theorem lex_nextMonth (a : List Char) (ha : a.all wordChar = true) (h0 : a ≠ []) :
    lexFrom .start [] (CondDate.formula a .nextMonth) = some [.word "AND".toList, .op '(', .word "MONTH".toList, .op
      '(', .word a, .op ')', .op '=', .word "MONTH".toList, .op '(', .word "TODAY".toList, .op '(', .op ')', .op ')',
      .op '+', .word "1".toList, .op ',', .word "OR".toList, .op '(', .word "YEAR".toList, .op '(', .word a, .op ')',
      .op '=', .word "YEAR".toList, .op '(', .word "TODAY".toList, .op '(', .op ')', .op ')', .op ',', .word
      "AND".toList, .op '(', .word "MONTH".toList, .op '(', .word a, .op ')', .op '=', .word "12".toList, .op ',',
      .word "YEAR".toList, .op '(', .word a, .op ')', .op '=', .word "YEAR".toList, .op '(', .word "TODAY".toList, .op
      '(', .op ')', .op ')', .op '+', .word "1".toList, .op ')', .op ')', .op ')'] := by
  unfold CondDate.formula
  simp only [List.append_assoc]
  rw [lex_piece piece15]
  rw [lex_refs _ ha h0 _ _ _ (by decide +kernel)]
  rw [lex_piece piece22]
  rw [lex_refs _ ha h0 _ _ _ (by decide +kernel)]
  rw [lex_piece piece17]
  rw [lex_refs _ ha h0 _ _ _ (by decide +kernel)]
  rw [lex_piece piece23]
  rw [lex_ref_last _ ha h0 _ _ (by decide +kernel)]
  rw [lex_last piece24 rfl]
  rfl

theorem eval_nextMonth (e : FEnv) (a : List Char) (ha : a.all wordChar = true) (h0 : a ≠ []) :
    evalFormula e (CondDate.formula a .nextMonth) =
      some (callFn e "AND".toList [(compareVal e .eq (callFn e "MONTH".toList [(wordVal e a)]) (arith false (callFn e
        "MONTH".toList [(callFn e "TODAY".toList [])]) (wordVal e "1".toList))), (callFn e "OR".toList [(compareVal e
        .eq (callFn e "YEAR".toList [(wordVal e a)]) (callFn e "YEAR".toList [(callFn e "TODAY".toList [])])), (callFn
        e "AND".toList [(compareVal e .eq (callFn e "MONTH".toList [(wordVal e a)]) (wordVal e "12".toList)),
        (compareVal e .eq (callFn e "YEAR".toList [(wordVal e a)]) (arith false (callFn e "YEAR".toList [(callFn e
        "TODAY".toList [])]) (wordVal e "1".toList)))])])]) := by
  unfold evalFormula
  rw [lex_nextMonth a ha h0]
  rfl

end Verif
