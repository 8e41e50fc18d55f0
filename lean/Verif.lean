import Verif.Token
import Verif.Erasure
import Verif.ErasureSpec
import Verif.ErasureThm
import Verif.Dict
import Verif.DictSpec
import Verif.DictLemmas
import Verif.DictThm
import Verif.Memory
import Verif.MemoryThm
import Verif.Lex2
import Verif.Lex2Spec
import Verif.Lex2Thm
import Verif.Lex2FoldThm
import Verif.Tree
import Verif.TreeSpec
import Verif.TreeThm
import Verif.CmavoTable
import Verif.Lex1
import Verif.Lex1Spec
import Verif.Lex1Thm
import Verif.Lex1HashThm
import Verif.Lex1ZoiThm
import Verif.LujvoTable
import Verif.Lujvo
import Verif.LujvoSpec
import Verif.LujvoTabThm
import Verif.LujvoLemmas
import Verif.LujvoValidThm
import Verif.LujvoOdoThm
import Verif.LujvoGlueThm
import Verif.LujvoMakeThm
import Verif.LujvoCanonThm
import Verif.Dfasyn
import Verif.DfasynSpec
import Verif.DfaCloThm
import Verif.DfaEvalThm
import Verif.DfaBuildThm
import Verif.DfaMergeThm
import Verif.DfaTabThm
import Verif.DfaSigThm
import Verif.DfaPipeThm
import Verif.Mt
import Verif.MtSpec
import Verif.MtThm
import Verif.Categ
import Verif.CategLemmas
import Verif.CategSpec
import Verif.CategPass
import Verif.CategGroup
import Verif.CategAhead
import Verif.CategTenseThm
import Verif.CategCo
import Verif.CategExact
import Verif.CategThm
import Verif.Cm
import Verif.CmSpec
import Verif.CmThm
import Verif.CmBlockThm
import Verif.Trans
import Verif.TransSpec
import Verif.TransCompThm
import Verif.TransInflThm
import Verif.TransThm
import Verif.TransTermThm
import Verif.TransTemplThm
import Verif.Block
import Verif.BlockEval
import Verif.MorfSrc
import Verif.BcSrc
import Verif.DfaCert
import Verif.DfaCertThm
import Verif.DfaCertPipe
import Verif.BcCert
import Verif.MorfNfa
import Verif.MorfCert
import Verif.Bc
import Verif.BcSpec
import Verif.BcAbs
import Verif.BcThm
import Verif.DfaProd
import Verif.Morf
import Verif.MorfAbs
import Verif.MorfGraph
import Verif.MorfFe
import Verif.MorfCut
import Verif.MorfSpec
import Verif.MorfSplitCert
import Verif.MorfSplit
import Verif.MorfSplitInv
import Verif.MorfSplitThm
import Verif.MorfCmavoCert
import Verif.MorfCmavo
import Verif.MorfCmavoInv
import Verif.MorfNameCert
import Verif.MorfName
import Verif.MorfThm
import Verif.MorfSame
import Verif.Elide
import Verif.ElideSpec
import Verif.ElideMin
import Verif.ElideAbs
import Verif.ElideSame
import Verif.ElideSim
import Verif.ElideThm
import Verif.MorfLujvoSpec
import Verif.MorfLujvoNfa
import Verif.MorfLujvoLang
import Verif.MorfLujvoCert
import Verif.MorfLujvo
import Verif.MorfLujvoInv
import Verif.MorfLujvoRun
import Verif.MorfLujvoThm
import Verif.MorfLujvoMake
import Verif.Terms
import Verif.TermsSpec
import Verif.TermsPlace
import Verif.TermsPlaceThm
import Verif.TermsConv
import Verif.TermsTreeSpec
import Verif.TermsTree
import Verif.TermsTreeThm
import Verif.TermsBridi
import Verif.TermsThm
import Verif.TermsKe
import Verif.TermsEx
import Verif.GramSyms
import Verif.GramRules
import Verif.GramWords
import Verif.Gram
import Verif.GramBase
import Verif.GramRead
import Verif.GramCount
import Verif.GramPass
import Verif.GramOcc
import Verif.GramLook
import Verif.GramEx
import Verif.Connect
import Verif.ConnectSpec
import Verif.ConnectThm
import Verif.Tenses
import Verif.TensesSpec
import Verif.TensesThm
import Verif.Relative
import Verif.RelativeSpec
import Verif.RelativeThm
import Verif.Errscan
import Verif.ErrscanThm
import Verif.Convert
import Verif.ConvertSpec
import Verif.ConvertBaiThm
import Verif.ConvertTu2Thm
import Verif.ConvertGlossThm
import Verif.ConvertScan
import Verif.ConvertScanSpec
import Verif.ConvertScanLem
import Verif.ConvertScanRun
import Verif.ConvertScanThm
import Verif.GramIds
import Verif.Output
import Verif.OutputSpec
import Verif.OutputThm
import Verif.OutputEnd
import Verif.OutputNum
import Verif.OutputEx
import Verif.TextBlk
import Verif.TextBlkSpec
import Verif.TextBlkThm
import Verif.TextBlkEnd
import Verif.TextBlkOut
import Verif.Flow
import Verif.FlowSpec
import Verif.FlowThm
import Verif.FlowMark
import Verif.LatexBlk
import Verif.LatexBlkSpec
import Verif.LatexBlkThm
import Verif.LatexBlkTex
import Verif.RefsThm
import Verif.RefsEnd
import Verif.Gloss
import Verif.GlossSpec
import Verif.GlossThm
import Verif.GlossEnd
import Verif.GlossSafe
import Verif.GlossEx
import Verif.GlossMore
import Verif.MainThm
import Verif.FormKnown
import Verif.LabelsShown
import Verif.CmTransWord
import Verif.CmTextThm
import Verif.ExtThm
import Verif.MakeThm
import Verif.EliTabThm
import Verif.UncomThm
import Verif.EmbedThm
import Verif.MkDictThm
import Verif.CanonTabThm
import Verif.RtgThm
import Verif.DfaScanThm
import Verif.ListGloss
import Verif.DfaExprThm
import Verif.DfaParseThm
import Verif.BcText
import Verif.MorfText
import Verif.DfaSrcThm
import Verif.StagSrc
import Verif.StagText
import Verif.StagCert
import Verif.StagPd
import Verif.StagBisim
import Verif.StagThm
import Verif.DfaSrcOk
import Verif.BlockInst
import Verif.BlockWF
import Verif.DfaFileThm
