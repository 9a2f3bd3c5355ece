import Verif.Proofs.PtrdBox

/-!
# The rectangle below the hat of PTRD

Generated: the rectangles that cover the parameters, each of them tested by the kernel.
-/

namespace Boost.Random.PtrdBox

open Boost.Random.Affine

set_option maxRecDepth 100000

theorem mid_0 : Cov midBox 1110506744054 0 330108502016 347707801600 :=
  Cov.of_strip (l := [(1110506744054, 3)]) (by decide +kernel)

theorem mid_1 : Cov midBox 1110506744054 0 294909902848 330108502016 :=
  Cov.of_strip (l := [(1110506744054, 3)]) (by decide +kernel)

theorem mid_2 : Cov midBox 1110506744054 0 224512704512 294909902848 :=
  Cov.of_strip (l := [(1110506744054, 3)]) (by decide +kernel)

theorem mid_3 : Cov midBox 1110506744054 0 83718307840 224512704512 :=
  Cov.of_strip (l := [(1110506744054, 3)]) (by decide +kernel)

theorem mid_4 : Cov midBox 1110506744054 0 0 83718307840 :=
  Cov.of_strip (l := [(1110506744054, 3)]) (by decide +kernel)

/-- The whole range of `δ`. -/
theorem mid_cov : Cov midBox 1110506744054 0 0 347707801600 :=
  ((((mid_0).join mid_1).join mid_2).join mid_3).join mid_4

theorem lowR_0 : Cov lowRBox 15707309753594 2199023255552 330108502016 347707801600 :=
  Cov.of_strip (l := [(4398046511104, 3), (7476665647104, 3), (11786749214720, 3), (15707309753594, 3)]) (by decide +kernel)

theorem lowR_1 : Cov lowRBox 15707309753594 2199023255552 294909902848 330108502016 :=
  Cov.of_strip (l := [(4398046511104, 3), (7476665647104, 3), (10493712400384, 3), (15707309753594, 3)]) (by decide +kernel)

theorem lowR_2 : Cov lowRBox 15707309753594 2199023255552 224512704512 294909902848 :=
  Cov.of_strip (l := [(3738332823552, 3), (5246856200192, 3), (7358788927488, 3), (9428476624896, 3), (12326052823040, 3), (15707309753594, 3)]) (by decide +kernel)

theorem lowR_3 : Cov lowRBox 15707309753594 2199023255552 154115506176 224512704512 :=
  Cov.of_strip (l := [(3738332823552, 3), (5246856200192, 3), (6281691660288, 3), (7730471370752, 3), (9150276829184, 3), (11138007826432, 3), (13085993598976, 3), (15707309753594, 3)]) (by decide +kernel)

theorem lowR_4 : Cov lowRBox 15707309753594 2199023255552 83718307840 154115506176 :=
  Cov.of_strip (l := [(3276539953152, 3), (4332497928192, 3), (5056887783424, 3), (5766782124032, 3), (6462482939904, 3), (7144275443712, 3), (7812428070912, 3), (8747841748992, 3), (10057420898304, 3), (11890835062784, 3), (13687591010304, 3), (15707309753594, 3)]) (by decide +kernel)

theorem lowR_5 : Cov lowRBox 15707309753594 2199023255552 34426847232 83718307840 :=
  Cov.of_strip (l := [(3276539953152, 3), (4015710535680, 3), (4740100390912, 3), (5237024751616, 3), (5577921003520, 3), (5911988928512, 3), (6379687378944, 3), (6838040920064, 3), (7479735877632, 3), (8378105462784, 3), (9635826237440, 3), (11396645388288, 3), (13861788844032, 3), (15707309753594, 3)]) (by decide +kernel)

theorem lowR_6 : Cov lowRBox 15707309753594 2199023255552 9781116928 34426847232 :=
  Cov.of_strip (l := [(3276539953152, 3), (4015710535680, 3), (4522785112064, 3), (5019709472768, 3), (5360605724672, 3), (5694673649664, 3), (6022064242688, 3), (6342911721472, 3), (6792088125440, 3), (7420948512768, 3), (8301349699584, 3), (9533921427456, 3), (11259525201920, 3), (13675377197056, 3), (15707309753594, 3)]) (by decide +kernel)

theorem lowR_7 : Cov lowRBox 15707309753594 2199023255552 0 9781116928 :=
  Cov.of_strip (l := [(3276539953152, 3), (4015710535680, 3), (4522785112064, 3), (4870627131392, 3), (5211523383296, 3), (5445364219904, 3), (5674540990464, 3), (5899120803840, 3), (6213542608896, 3), (6653743202304, 3), (7270020677632, 3), (8132822564864, 3), (9858426339328, 3), (12274278334464, 3), (14641811947520, 3), (15707309753594, 3)]) (by decide +kernel)

/-- The whole range of `δ`. -/
theorem lowR_cov : Cov lowRBox 15707309753594 2199023255552 0 347707801600 :=
  (((((((lowR_0).join lowR_1).join lowR_2).join lowR_3).join lowR_4).join lowR_5).join lowR_6).join lowR_7

theorem lowL_0 : Cov lowLBox 15707309753594 2199023255552 330108502016 347707801600 :=
  Cov.of_strip (l := [(4398046511104, 3), (7476665647104, 3), (10493712400384, 3), (13450428284928, 3), (15478726590464, 3), (15707309753594, 3)]) (by decide +kernel)

theorem lowL_1 : Cov lowLBox 15707309753594 2199023255552 294909902848 330108502016 :=
  Cov.of_strip (l := [(4398046511104, 3), (7476665647104, 3), (10493712400384, 3), (12563400097792, 3), (14591698403328, 3), (15273490907136, 3), (15600881500160, 3), (15707309753594, 3)]) (by decide +kernel)

theorem lowL_2 : Cov lowLBox 15707309753594 2199023255552 270264172544 294909902848 :=
  Cov.of_strip (l := [(4398046511104, 3), (7476665647104, 3), (10493712400384, 3), (13450428284928, 3), (14870233743360, 3), (15552026247168, 3), (15707309753594, 3)]) (by decide +kernel)

theorem lowL_3 : Cov lowLBox 15707309753594 2199023255552 253000417280 270264172544 :=
  Cov.of_strip (l := [(4398046511104, 3), (7476665647104, 3), (10493712400384, 3), (13450428284928, 3), (14870233743360, 3), (15552026247168, 3), (15707309753594, 3)]) (by decide +kernel)

theorem lowL_4 : Cov lowLBox 15707309753594 2199023255552 235736662016 253000417280 :=
  Cov.of_strip (l := [(4398046511104, 3), (7476665647104, 3), (10493712400384, 3), (13450428284928, 3), (14870233743360, 3), (15552026247168, 3), (15664316153856, 3), (15707309753594, 3)]) (by decide +kernel)

theorem lowL_5 : Cov lowLBox 15707309753594 2199023255552 223640289280 235736662016 :=
  Cov.of_strip (l := [(4398046511104, 3), (7476665647104, 3), (10493712400384, 3), (13450428284928, 3), (14870233743360, 3), (15552026247168, 3), (15664316153856, 3), (15707309753594, 3)]) (by decide +kernel)

theorem lowL_6 : Cov lowLBox 15707309753594 2199023255552 215167795200 223640289280 :=
  Cov.of_strip (l := [(4398046511104, 3), (7476665647104, 3), (10493712400384, 3), (13450428284928, 3), (14870233743360, 3), (15552026247168, 3), (15664316153856, 3), (15707309753594, 3)]) (by decide +kernel)

theorem lowL_7 : Cov lowLBox 15707309753594 2199023255552 209228660736 215167795200 :=
  Cov.of_strip (l := [(4398046511104, 3), (7476665647104, 3), (10493712400384, 3), (13450428284928, 3), (14870233743360, 3), (15552026247168, 3), (15664316153856, 3), (15702048112640, 3), (15707309753594, 3)]) (by decide +kernel)

theorem lowL_8 : Cov lowLBox 15707309753594 2199023255552 205067911168 209228660736 :=
  Cov.of_strip (l := [(4398046511104, 3), (7476665647104, 3), (10493712400384, 3), (13450428284928, 3), (14870233743360, 3), (15552026247168, 3), (15664316153856, 3), (15702048112640, 3), (15707309753594, 3)]) (by decide +kernel)

theorem lowL_9 : Cov lowLBox 15707309753594 2199023255552 202148675584 205067911168 :=
  Cov.of_strip (l := [(4398046511104, 3), (7476665647104, 3), (10493712400384, 3), (13450428284928, 3), (14870233743360, 3), (15552026247168, 3), (15664316153856, 3), (15702048112640, 3), (15707309753594, 6)]) (by decide +kernel)

theorem lowL_10 : Cov lowLBox 15707309753594 2199023255552 200101855232 202148675584 :=
  Cov.of_strip (l := [(4398046511104, 3), (7476665647104, 3), (10493712400384, 3), (13450428284928, 3), (14870233743360, 3), (15552026247168, 3), (15664316153856, 3), (15702048112640, 3), (15707309753594, 3)]) (by decide +kernel)

theorem lowL_11 : Cov lowLBox 15707309753594 2199023255552 198055034880 200101855232 :=
  Cov.of_strip (l := [(4398046511104, 3), (7476665647104, 3), (10493712400384, 3), (13450428284928, 3), (14870233743360, 3), (15552026247168, 3), (15664316153856, 3), (15702048112640, 3), (15706393411584, 3), (15707309753594, 6)]) (by decide +kernel)

theorem lowL_12 : Cov lowLBox 15707309753594 2199023255552 196008214528 198055034880 :=
  Cov.of_strip (l := [(4398046511104, 3), (7476665647104, 3), (10493712400384, 3), (13450428284928, 3), (14870233743360, 3), (15552026247168, 3), (15664316153856, 3), (15702048112640, 3), (15707309753594, 6)]) (by decide +kernel)

theorem lowL_13 : Cov lowLBox 15707309753594 2199023255552 193961394176 196008214528 :=
  Cov.of_strip (l := [(4398046511104, 3), (7476665647104, 3), (10493712400384, 3), (13450428284928, 3), (14870233743360, 3), (15552026247168, 3), (15664316153856, 3), (15702048112640, 3), (15707309753594, 3)]) (by decide +kernel)

theorem lowL_14 : Cov lowLBox 15707309753594 2199023255552 191092490240 193961394176 :=
  Cov.of_strip (l := [(4398046511104, 3), (6553079906304, 3), (9570126659584, 3), (12526842544128, 3), (14555140849664, 3), (15529125347328, 3), (15689549086720, 3), (15707309753594, 3)]) (by decide +kernel)

theorem lowL_15 : Cov lowLBox 15707309753594 2199023255552 187065958400 191092490240 :=
  Cov.of_strip (l := [(4398046511104, 3), (6553079906304, 3), (9570126659584, 3), (12526842544128, 3), (14555140849664, 3), (15529125347328, 3), (15689549086720, 3), (15707309753594, 3)]) (by decide +kernel)

theorem lowL_16 : Cov lowLBox 15707309753594 2199023255552 181428813824 187065958400 :=
  Cov.of_strip (l := [(4398046511104, 3), (6553079906304, 3), (9570126659584, 3), (12526842544128, 3), (14555140849664, 3), (15529125347328, 3), (15689549086720, 3), (15707309753594, 3)]) (by decide +kernel)

theorem lowL_17 : Cov lowLBox 15707309753594 2199023255552 173526745088 181428813824 :=
  Cov.of_strip (l := [(4398046511104, 3), (6553079906304, 3), (9570126659584, 3), (12526842544128, 3), (14555140849664, 3), (15529125347328, 3), (15689549086720, 3), (15707309753594, 3)]) (by decide +kernel)

theorem lowL_18 : Cov lowLBox 15707309753594 2199023255552 157722607616 173526745088 :=
  Cov.of_strip (l := [(4398046511104, 3), (6553079906304, 3), (8665012633600, 3), (11621728518144, 3), (13650026823680, 3), (15041445232640, 3), (15509143683072, 3), (15666346196992, 3), (15703323181056, 3), (15707309753594, 3)]) (by decide +kernel)

theorem lowL_19 : Cov lowLBox 15707309753594 2199023255552 135593459712 157722607616 :=
  Cov.of_strip (l := [(4398046511104, 3), (6553079906304, 3), (8665012633600, 3), (10734700331008, 3), (12762998636544, 3), (14750729633792, 3), (15418882260992, 3), (15643462074368, 3), (15707309753594, 3)]) (by decide +kernel)

theorem lowL_20 : Cov lowLBox 15707309753594 2199023255552 104605941760 135593459712 :=
  Cov.of_strip (l := [(3738332823552, 3), (5246856200192, 3), (6725214142464, 3), (8794901839872, 3), (10823200145408, 3), (12810931142656, 3), (14174516150272, 3), (15109929828352, 3), (15559106232320, 3), (15707309753594, 3)]) (by decide +kernel)

theorem lowL_21 : Cov lowLBox 15707309753594 2199023255552 42630905856 104605941760 :=
  Cov.of_strip (l := [(3276539953152, 3), (4332497928192, 3), (5056887783424, 3), (5766782124032, 3), (6760647622656, 3), (7734632120320, 3), (9098217127936, 3), (11007229427712, 3), (12878073561088, 3), (14161463476224, 3), (15041864663040, 3), (15464633729024, 3), (15667638042624, 3), (15707309753594, 3)]) (by decide +kernel)

theorem lowL_22 : Cov lowLBox 15707309753594 2199023255552 11643387904 42630905856 :=
  Cov.of_strip (l := [(3276539953152, 3), (4015710535680, 3), (4740100390912, 3), (5237024751616, 3), (5724017000448, 3), (6405809504256, 3), (7073962131456, 3), (8009375809536, 3), (9318954958848, 3), (11152369123328, 3), (13719165730816, 3), (15479984881664, 3), (15707309753594, 3)]) (by decide +kernel)

theorem lowL_23 : Cov lowLBox 15707309753594 2199023255552 0 11643387904 :=
  Cov.of_strip (l := [(3276539953152, 3), (4015710535680, 3), (4522785112064, 3), (4870627131392, 3), (5211523383296, 3), (5445364219904, 3), (5674540990464, 3), (5899120803840, 3), (6213542608896, 3), (6653743202304, 3), (7270020677632, 3), (8132822564864, 3), (9858426339328, 3), (12274278334464, 3), (14641811947520, 3), (15707309753594, 3)]) (by decide +kernel)

/-- The whole range of `δ`. -/
theorem lowL_cov : Cov lowLBox 15707309753594 2199023255552 0 347707801600 :=
  (((((((((((((((((((((((lowL_0).join lowL_1).join lowL_2).join lowL_3).join lowL_4).join lowL_5).join lowL_6).join lowL_7).join lowL_8).join lowL_9).join lowL_10).join lowL_11).join lowL_12).join lowL_13).join lowL_14).join lowL_15).join lowL_16).join lowL_17).join lowL_18).join lowL_19).join lowL_20).join lowL_21).join lowL_22).join lowL_23

end Boost.Random.PtrdBox
