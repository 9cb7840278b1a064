import Verif.Model.Cards

/-!
The cases of `h800/punchcard_test.py` and `h800/arguscard_test.py`, as checks that the model agrees
with what the project's own tests expect of the code. These are tests, not proofs; no property rests
on them.
-/

namespace H800.Tests

/-- `test_simple`, the card -/
def cardLine : Str :=
  py " 0981   BACKUP     TS           S ZERO        COMMON        SET UP GPB     C    COMMUNICATION FLAG FOR END."

/-- `test_simple`, the assertions about the card -/
example : (punchClass cardLine DEFAULT_WIDTH DEFAULT_FIELDS none 0).toOption.any (fun c =>
    c.line = cardLine &&
    c.layout = [(1, 1), (2, 6), (8, 1), (9, 11), (20, 13), (33, 14), (47, 14), (61, 15), (76, 5),
      (81, 40)] &&
    decide (c.fields = .ok [py " ", py "0981  ", py " ", py "BACKUP     ", py "TS           ",
      py "S ZERO        ", py "COMMON        ", py "SET UP GPB     ", py "C    ",
      py "COMMUNICATION FLAG FOR END."]) &&
    decide (c.strippedFields = .ok [none, some (py "0981"), none, some (py "BACKUP"), some (py "TS"),
      some (py "S ZERO"), some (py "COMMON"), some (py "SET UP GPB"), some (py "C"),
      some (py "COMMUNICATION FLAG FOR END.")]) &&
    decide (c.record = .ok [(py "column1", .none), (py "lognum", .str (py "0981")),
      (py "column8", .none), (py "label", .str (py "BACKUP")), (py "operation", .str (py "TS")),
      (py "operand1", .str (py "S ZERO")), (py "operand2", .str (py "COMMON")),
      (py "operand3", .str (py "SET UP GPB")), (py "misc", .str (py "C")),
      (py "remarks", .str (py "COMMUNICATION FLAG FOR END."))])) = true := by decide +kernel

/-- punchcard_test.py, the lines of the deck -/
def punchLines : List Str :=
  [py "",
   py "L      @XYZ TESTING 123",
   py "",
   py " 0020   L BACKUP   SPEC                                       BACKUP",
   py " 0021   L PRINT PS SPEC                                       PRINT PS",
   py "",
   py " 0030   A999999    ALF          09999990",
   py " 0031   ASTRISK    ALF          *",
   py " 0032   COMA 1962  ALF          , 1962",
   py " 0033   DASH 1T3   ALF          ---",
   py "",
   py " 0035   PASSS RE   ALF          RE: ASSE",
   py " 0036   MANUS RE   ALF            RE: MA",
   py " 0038   PASS S EQU ALF            = ASSE",
   py " 0039   MANU S EQU ALF              = MA",
   py " 0046   Y COLYUM 1 ALF          Y      3",
   py " 0047   PMAX9 MSJ  ALF          PMAX = 9",
   py " 0048   S BLANKS   ALF",
   py "",
   py " 0049   S BLOTS    ALF          ████████",
   py " 0050   S COLON C1 ALF          :",
   py " 00505  S SIGH     ALF          (SIGH)",
   py "",
   py " 0055   W 254P     ALF          254+",
   py "",
   py "# Page 110",
   py "L      @YUL SYSTEM PASS 0 SERVICE MODULE                                         USER'S OWN PAGE NO.   3        PAGE  70",
   py "",
   py "P0068   ONE-WORD ALPHABETIC CONSTANTS CONCLUDED.",
   py "",
   py " 0069   W NONE     ALF           (NONE)",
   py " 0070   W OBS      ALF            *OBS*",
   py " 0071   W OBSOLET  ALF          OBSOLETE",
   py " 0085   ZSUP ONE   ALF                 1",
   py "",
   py "",
   py "R0086   ALPHABETIC ARRAYS.",
   py "",
   py " 0088   BKUP LINE  ALF,4         DIRECTORY LISTING OF YULPROGS #",
   py " 0089   BUREL MSG  ALF,2        BACKUP RELABELED",
   py " 0090   CHEDL MSG  ALF,3        CHECK DIRECTORY LISTING",
   py " 0091   COMPU MSG  ALF,2",
   py " 0092   COMUS MSG  ALF,3        COMPUTER IS STILL IN USE",
   py " 0093   CONCN MSG  ALF,5        CONFLICT WITH EXISTING COMPUTER NAME-",
   py " 0094   DCLAV MSG  ALF,3        DECLARED AVAILABLE",
   py " 0095   DCLOB MSG  ALF,3        DECLARED OBSOLETE",
   py " 0096   DCLOK MSG  ALF,3        DECLARED CHECKED OUT",
   py " 0097   MANUS MSG  ALF,2        NUFACTURING FOR",
   py "",
   py "# Page 111",
   py "L      @YUL SYSTEM PASS 0 SERVICE MODULE                                         USER'S OWN PAGE NO.   4        PAGE  71",
   py "",
   py "P0098   ALPHABETIC ARRAYS CONTINUED.",
   py "",
   py " 0099   MNTN LINE  ALF,4        YUL SYSTEM MAINTENANCE FUNCTION:",
   py " 0100   NEWCO MSG  ALF,3          NEW COMPUTER:",
   py " 0101   NEW LINE   OCT          0",
   py " 0102              ALF,5",
   py " 0103              ALF,5",
   py " 0104              ALF,5",
   py " 0105   NOMAT MSG  ALF,4        NO MATCH FOUND FOR THIS CARD:",
   py " 0106   NOTAV MSG  ALF,2        NOT AVAILABLE",
   py " 0107   NOW OP MSG ALF,4         NOW OPERATING FROM NEW YULPROGS",
   py "",
   py " 0108   OBUWK MSG  ALF,4        FORMER BACKUP WILL BE WORKER",
   py " 0109   OP SLP MSJ ALF,2        OPERATOR ASLEEP",
   py " 0110   PASSS MSG  ALF,2        MBLY PASS █ FOR",
   py " 0111   PCH CARD   OCT          0",
   py " 0112              ALF,5",
   py " 0113              ALF,5",
   py " 0932   RUNOUT PR  TS           S 4SPACE      N,X2,1        GET LOG NO     C",
   py " 0933              SWS, D8T12   S ZERO                      N,AU2",
   py " 0934              MT           S BLANKS      15            N,X2,1",
   py " 0935              WD           Z,X2          OCTAL 20      Z,X2",
   py " 0936              S, PHI PRINT 2,0",
   py " 0937              S, PHI PRINT 2,0",
   py " 0938              S, PHI PRINT 2,0                                             FORCE LAST LINES THROUGH BUFPRINT.",
   py " 0940              S, MON TYPER W LIST DUN    SPRAMR +16    -                   ANNOUNCE END OF LISTING.",
   py "",
   py "R0979   TO EACH.  WHEN THE LISTING IS FINISHED, GROUP B HOISTS A FLAG AND EXPIRES.",
   py "",
   py "",
   py " 0981   BACKUP     TS           S ZERO        COMMON        SET UP GPB     C    COMMUNICATION FLAG FOR END.",
   py " 0983              TS           Z,SC,4        N,SH          MON WAKE       C",
   py "",
   py " 0984   BK1 VIA X0 TX           L BANK 1      -             Z,X0",
   py " 0985              TX           L DIRECTY     -             Z,X1",
   py " 0986              TX           PHI WAA       -             Z,X6",
   py " 0987              TS           YUL MASKS     Z,MXR         LIST LABL           START GROUP B GOING ON LISTING.",
   py "",
   py " 0989              TX           1,1           -             YUL BU MSG +1",
   py " 0991              NA, CHAR8    1,0           S ONE         AMEND BUL           BRANCH IF ONLY MUST AMEND BACKUP LABEL."]

/-- arguscard_test.py, the lines of the deck -/
def argusLines : List Str :=
  [py "",
   py "L      @XYZ TESTING 123",
   py "",
   py " 0020   L BACKUP   SPEC                                       BACKUP",
   py " 0021   L PRINT PS SPEC                                       PRINT PS",
   py "",
   py " 0030   A999999    ALF          09999990",
   py " 0031   ASTRISK    ALF          *",
   py " 0032   COMA 1962  ALF          , 1962",
   py " 0033   DASH 1T3   ALF          ---",
   py "",
   py " 0035   PASSS RE   ALF          RE: ASSE",
   py " 0036   MANUS RE   ALF            RE: MA",
   py " 0038   PASS S EQU ALF            = ASSE",
   py " 0039   MANU S EQU ALF              = MA",
   py " 0046   Y COLYUM 1 ALF          Y      3",
   py " 0047   PMAX9 MSJ  ALF          PMAX = 9",
   py " 0048   S BLANKS   ALF",
   py "",
   py " 0049   S BLOTS    ALF          ████████",
   py " 0050   S COLON C1 ALF          :",
   py " 00505  S SIGH     ALF          (SIGH)",
   py "",
   py " 0055   W 254P     ALF          254+",
   py "",
   py "# Page 110",
   py "#      @YUL SYSTEM PASS 0 SERVICE MODULE                                         USER'S OWN PAGE NO.   3        PAGE  70",
   py "",
   py "P0068   ONE-WORD ALPHABETIC CONSTANTS CONCLUDED.",
   py "",
   py " 0069   W NONE     ALF           (NONE)",
   py " 0070   W OBS      ALF            *OBS*",
   py " 0071   W OBSOLET  ALF          OBSOLETE",
   py " 0085   ZSUP ONE   ALF                 1",
   py "",
   py "",
   py "R0086   ALPHABETIC ARRAYS.",
   py "",
   py " 0088   BKUP LINE  ALF,4         DIRECTORY LISTING OF YULPROGS #",
   py " 0089   BUREL MSG  ALF,2        BACKUP RELABELED",
   py " 0090   CHEDL MSG  ALF,3        CHECK DIRECTORY LISTING",
   py " 0091   COMPU MSG  ALF,2",
   py " 0092   COMUS MSG  ALF,3        COMPUTER IS STILL IN USE",
   py " 0093   CONCN MSG  ALF,5        CONFLICT WITH EXISTING COMPUTER NAME-",
   py " 0094   DCLAV MSG  ALF,3        DECLARED AVAILABLE",
   py " 0095   DCLOB MSG  ALF,3        DECLARED OBSOLETE",
   py " 0096   DCLOK MSG  ALF,3        DECLARED CHECKED OUT",
   py " 0097   MANUS MSG  ALF,2        NUFACTURING FOR",
   py "",
   py "# Page 111",
   py "#      @YUL SYSTEM PASS 0 SERVICE MODULE                                         USER'S OWN PAGE NO.   4        PAGE  71",
   py "",
   py "P0098   ALPHABETIC ARRAYS CONTINUED.",
   py "",
   py " 0099   MNTN LINE  ALF,4        YUL SYSTEM MAINTENANCE FUNCTION:",
   py " 0100   NEWCO MSG  ALF,3          NEW COMPUTER:",
   py " 0101   NEW LINE   OCT          0",
   py " 0102              ALF,5",
   py " 0103              ALF,5",
   py " 0104              ALF,5",
   py " 0105   NOMAT MSG  ALF,4        NO MATCH FOUND FOR THIS CARD:",
   py " 0106   NOTAV MSG  ALF,2        NOT AVAILABLE",
   py " 0107   NOW OP MSG ALF,4         NOW OPERATING FROM NEW YULPROGS",
   py "",
   py " 0108   OBUWK MSG  ALF,4        FORMER BACKUP WILL BE WORKER",
   py " 0109   OP SLP MSJ ALF,2        OPERATOR ASLEEP",
   py " 0110   PASSS MSG  ALF,2        MBLY PASS █ FOR",
   py " 0111   PCH CARD   OCT          0",
   py " 0112              ALF,5",
   py " 0113              ALF,5",
   py " 0932   RUNOUT PR  TS           S 4SPACE      N,X2,1        GET LOG NO     C",
   py " 0933              SWS, D8T12   S ZERO                      N,AU2",
   py " 0934              MT           S BLANKS      15            N,X2,1",
   py " 0935              WD           Z,X2          OCTAL 20      Z,X2",
   py " 0936              S, PHI PRINT 2,0",
   py " 0937              S, PHI PRINT 2,0",
   py " 0938              S, PHI PRINT 2,0                                             FORCE LAST LINES THROUGH BUFPRINT.",
   py " 0940              S, MON TYPER W LIST DUN    SPRAMR +16    -                   ANNOUNCE END OF LISTING.",
   py "",
   py "R0979   TO EACH.  WHEN THE LISTING IS FINISHED, GROUP B HOISTS A FLAG AND EXPIRES.",
   py "",
   py "",
   py " 0981   BACKUP     TS           S ZERO        COMMON        SET UP GPB     C    COMMUNICATION FLAG FOR END.",
   py " 0983              TS           Z,SC,4        N,SH          MON WAKE       C",
   py "",
   py " 0984   BK1 VIA X0 TX           L BANK 1      -             Z,X0",
   py " 0985              TX           L DIRECTY     -             Z,X1",
   py " 0986              TX           PHI WAA       -             Z,X6",
   py " 0987              TS           YUL MASKS     Z,MXR         LIST LABL           START GROUP B GOING ON LISTING.",
   py "",
   py " 0989              TX           1,1           -             YUL BU MSG +1",
   py " 0991              NA, CHAR8    1,0           S ONE         AMEND BUL           BRANCH IF ONLY MUST AMEND BACKUP LABEL."]

/-- `test_simple`: the deck can be built. -/
example : (Deck.init (fun _ => none) 1 (some punchLines) none DEFAULT_WIDTH DEFAULT_FIELDS
    punchClass).toOption.isSome = true := by decide +kernel

/-- `test_deck` -/
example : (ArgusDeck.init (fun _ => none) 1 (some argusLines) none DEFAULT_WIDTH DEFAULT_FIELDS
    argusClass).toOption.any (fun d => d.logSection = some (py "XYZ TESTING 123") &&
      d.logSectionCol8 = .str (py "@")) = true := by decide +kernel

end H800.Tests
