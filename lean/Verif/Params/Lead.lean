/-!
# Leading coefficients of the digest

Generated by `tools/gen_lead.py`.  Entry `j` of row `i` is claimed to be the coefficient at `17^39` of the digest of rate `i + 1` as a
polynomial in input word `j`; `Props/Separation.lean` proves it (`lead_value`).
-/

namespace Poseidon

def leadTable : List (List Nat) :=
  [[6358668033199541423000299306426667584484586689188325104583563297467218617738,
    8442186333882130750239387108640896465834683153059666979958218885668705749921],
   [1680889217389343897604454049592311114663716564449935322796696619738618888068,
    3621857352969857796943149783225321950606773690404123613299608706947430874496,
    755513989777400844349345593206701091621633979399761662091124533301700212010],
   [7335049951913912916919564004801574729711457380406091450731234159970584686893,
    3937969777571108302849099231589358428772732742762779270805096508839336792422,
    2564071788327209960319671290763979955042461158508099315267312256909326166284,
    6789824824155828576867551369079941910247608055873342994200615971903768027784],
   [698640244000367468132521453939984088232585566657559395379175878473731470732,
    8319352084694908930474728589041377910974098210399638642372939140128287942735,
    8336622508121433002704161464284145791296659655654150343119043724802974393811,
    2762784953861890913388590418972345441079107933563962467830725761999389945039,
    1874459813764956103625457631734707534684401575649383319861344201082630548158],
   [4558063166419568828481817216054251059170536697821207948244787404543992878625,
    1532590305445630442718552875558704756100934808899362198971986956986658770773,
    5831182061532523857394154274845348168080367914870465684473326838960394409888,
    4348046839581252258321698388539195895837886204329736678463388740220571972908,
    3528888142518240800762182580294551065530834958140466601746974955414687916174,
    3103041298817324409166707542173078521029681619103579594183348102148855968520],
   [2040380693595096095797123295526733838897950292681509725368448296157346057990,
    7080622444023208199260733435133344371784464166174120526932025202501949528582,
    3793038522345699958122983882142785946183822557719580048899696062536967001385,
    7861545142932416655104392578421954200252530059964600169325486368218336518767,
    1793370035413130961791300142146615266835533059067342330177340271313834583761,
    6244527259442931651550197481540708511893553558533154700676232282710212591287,
    4662949881104750381501728785185433352909207063717300147184871646342630957910],
   [3828238665387627310528429743284062236512247646964967355100789287525307330053,
    1750059773792664642521532704254511522354042385483855644911511331961471933394,
    4733641825432869339728005247020747257555682634594226616683142248667007852076,
    5672244123845737530653421421413562259696856309846680856109912345870997898152,
    4612794136038769740384894004463114452890610541700662196215414718434714556145,
    806415410479240245774695385382788922301933407023565446463971270739620996197,
    7931635552912983749291701944549871278709859052743277387054408447522161280972,
    7115642121401777320146104414638472911961687960608214357919779248231889155671]]

end Poseidon
