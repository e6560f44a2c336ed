import Verif.Basic

/-! # The word list of src/data/bip39_english.h (generated from that file, in 64 blocks of 32 words) -/

namespace Nostr.Hd
open Nostr

/-- bip39_english.h:5-36. -/
def block0 : List Bytes := [
  c!"abandon", c!"ability", c!"able", c!"about", c!"above", c!"absent", c!"absorb", c!"abstract",
  c!"absurd", c!"abuse", c!"access", c!"accident", c!"account", c!"accuse", c!"achieve", c!"acid",
  c!"acoustic", c!"acquire", c!"across", c!"act", c!"action", c!"actor", c!"actress", c!"actual",
  c!"adapt", c!"add", c!"addict", c!"address", c!"adjust", c!"admit", c!"adult", c!"advance"]

/-- bip39_english.h:37-68. -/
def block1 : List Bytes := [
  c!"advice", c!"aerobic", c!"affair", c!"afford", c!"afraid", c!"again", c!"age", c!"agent",
  c!"agree", c!"ahead", c!"aim", c!"air", c!"airport", c!"aisle", c!"alarm", c!"album",
  c!"alcohol", c!"alert", c!"alien", c!"all", c!"alley", c!"allow", c!"almost", c!"alone",
  c!"alpha", c!"already", c!"also", c!"alter", c!"always", c!"amateur", c!"amazing", c!"among"]

/-- bip39_english.h:69-100. -/
def block2 : List Bytes := [
  c!"amount", c!"amused", c!"analyst", c!"anchor", c!"ancient", c!"anger", c!"angle", c!"angry",
  c!"animal", c!"ankle", c!"announce", c!"annual", c!"another", c!"answer", c!"antenna", c!"antique",
  c!"anxiety", c!"any", c!"apart", c!"apology", c!"appear", c!"apple", c!"approve", c!"april",
  c!"arch", c!"arctic", c!"area", c!"arena", c!"argue", c!"arm", c!"armed", c!"armor"]

/-- bip39_english.h:101-132. -/
def block3 : List Bytes := [
  c!"army", c!"around", c!"arrange", c!"arrest", c!"arrive", c!"arrow", c!"art", c!"artefact",
  c!"artist", c!"artwork", c!"ask", c!"aspect", c!"assault", c!"asset", c!"assist", c!"assume",
  c!"asthma", c!"athlete", c!"atom", c!"attack", c!"attend", c!"attitude", c!"attract", c!"auction",
  c!"audit", c!"august", c!"aunt", c!"author", c!"auto", c!"autumn", c!"average", c!"avocado"]

/-- bip39_english.h:133-164. -/
def block4 : List Bytes := [
  c!"avoid", c!"awake", c!"aware", c!"away", c!"awesome", c!"awful", c!"awkward", c!"axis",
  c!"baby", c!"bachelor", c!"bacon", c!"badge", c!"bag", c!"balance", c!"balcony", c!"ball",
  c!"bamboo", c!"banana", c!"banner", c!"bar", c!"barely", c!"bargain", c!"barrel", c!"base",
  c!"basic", c!"basket", c!"battle", c!"beach", c!"bean", c!"beauty", c!"because", c!"become"]

/-- bip39_english.h:165-196. -/
def block5 : List Bytes := [
  c!"beef", c!"before", c!"begin", c!"behave", c!"behind", c!"believe", c!"below", c!"belt",
  c!"bench", c!"benefit", c!"best", c!"betray", c!"better", c!"between", c!"beyond", c!"bicycle",
  c!"bid", c!"bike", c!"bind", c!"biology", c!"bird", c!"birth", c!"bitter", c!"black",
  c!"blade", c!"blame", c!"blanket", c!"blast", c!"bleak", c!"bless", c!"blind", c!"blood"]

/-- bip39_english.h:197-228. -/
def block6 : List Bytes := [
  c!"blossom", c!"blouse", c!"blue", c!"blur", c!"blush", c!"board", c!"boat", c!"body",
  c!"boil", c!"bomb", c!"bone", c!"bonus", c!"book", c!"boost", c!"border", c!"boring",
  c!"borrow", c!"boss", c!"bottom", c!"bounce", c!"box", c!"boy", c!"bracket", c!"brain",
  c!"brand", c!"brass", c!"brave", c!"bread", c!"breeze", c!"brick", c!"bridge", c!"brief"]

/-- bip39_english.h:229-260. -/
def block7 : List Bytes := [
  c!"bright", c!"bring", c!"brisk", c!"broccoli", c!"broken", c!"bronze", c!"broom", c!"brother",
  c!"brown", c!"brush", c!"bubble", c!"buddy", c!"budget", c!"buffalo", c!"build", c!"bulb",
  c!"bulk", c!"bullet", c!"bundle", c!"bunker", c!"burden", c!"burger", c!"burst", c!"bus",
  c!"business", c!"busy", c!"butter", c!"buyer", c!"buzz", c!"cabbage", c!"cabin", c!"cable"]

/-- bip39_english.h:261-292. -/
def block8 : List Bytes := [
  c!"cactus", c!"cage", c!"cake", c!"call", c!"calm", c!"camera", c!"camp", c!"can",
  c!"canal", c!"cancel", c!"candy", c!"cannon", c!"canoe", c!"canvas", c!"canyon", c!"capable",
  c!"capital", c!"captain", c!"car", c!"carbon", c!"card", c!"cargo", c!"carpet", c!"carry",
  c!"cart", c!"case", c!"cash", c!"casino", c!"castle", c!"casual", c!"cat", c!"catalog"]

/-- bip39_english.h:293-324. -/
def block9 : List Bytes := [
  c!"catch", c!"category", c!"cattle", c!"caught", c!"cause", c!"caution", c!"cave", c!"ceiling",
  c!"celery", c!"cement", c!"census", c!"century", c!"cereal", c!"certain", c!"chair", c!"chalk",
  c!"champion", c!"change", c!"chaos", c!"chapter", c!"charge", c!"chase", c!"chat", c!"cheap",
  c!"check", c!"cheese", c!"chef", c!"cherry", c!"chest", c!"chicken", c!"chief", c!"child"]

/-- bip39_english.h:325-356. -/
def block10 : List Bytes := [
  c!"chimney", c!"choice", c!"choose", c!"chronic", c!"chuckle", c!"chunk", c!"churn", c!"cigar",
  c!"cinnamon", c!"circle", c!"citizen", c!"city", c!"civil", c!"claim", c!"clap", c!"clarify",
  c!"claw", c!"clay", c!"clean", c!"clerk", c!"clever", c!"click", c!"client", c!"cliff",
  c!"climb", c!"clinic", c!"clip", c!"clock", c!"clog", c!"close", c!"cloth", c!"cloud"]

/-- bip39_english.h:357-388. -/
def block11 : List Bytes := [
  c!"clown", c!"club", c!"clump", c!"cluster", c!"clutch", c!"coach", c!"coast", c!"coconut",
  c!"code", c!"coffee", c!"coil", c!"coin", c!"collect", c!"color", c!"column", c!"combine",
  c!"come", c!"comfort", c!"comic", c!"common", c!"company", c!"concert", c!"conduct", c!"confirm",
  c!"congress", c!"connect", c!"consider", c!"control", c!"convince", c!"cook", c!"cool", c!"copper"]

/-- bip39_english.h:389-420. -/
def block12 : List Bytes := [
  c!"copy", c!"coral", c!"core", c!"corn", c!"correct", c!"cost", c!"cotton", c!"couch",
  c!"country", c!"couple", c!"course", c!"cousin", c!"cover", c!"coyote", c!"crack", c!"cradle",
  c!"craft", c!"cram", c!"crane", c!"crash", c!"crater", c!"crawl", c!"crazy", c!"cream",
  c!"credit", c!"creek", c!"crew", c!"cricket", c!"crime", c!"crisp", c!"critic", c!"crop"]

/-- bip39_english.h:421-452. -/
def block13 : List Bytes := [
  c!"cross", c!"crouch", c!"crowd", c!"crucial", c!"cruel", c!"cruise", c!"crumble", c!"crunch",
  c!"crush", c!"cry", c!"crystal", c!"cube", c!"culture", c!"cup", c!"cupboard", c!"curious",
  c!"current", c!"curtain", c!"curve", c!"cushion", c!"custom", c!"cute", c!"cycle", c!"dad",
  c!"damage", c!"damp", c!"dance", c!"danger", c!"daring", c!"dash", c!"daughter", c!"dawn"]

/-- bip39_english.h:453-484. -/
def block14 : List Bytes := [
  c!"day", c!"deal", c!"debate", c!"debris", c!"decade", c!"december", c!"decide", c!"decline",
  c!"decorate", c!"decrease", c!"deer", c!"defense", c!"define", c!"defy", c!"degree", c!"delay",
  c!"deliver", c!"demand", c!"demise", c!"denial", c!"dentist", c!"deny", c!"depart", c!"depend",
  c!"deposit", c!"depth", c!"deputy", c!"derive", c!"describe", c!"desert", c!"design", c!"desk"]

/-- bip39_english.h:485-516. -/
def block15 : List Bytes := [
  c!"despair", c!"destroy", c!"detail", c!"detect", c!"develop", c!"device", c!"devote", c!"diagram",
  c!"dial", c!"diamond", c!"diary", c!"dice", c!"diesel", c!"diet", c!"differ", c!"digital",
  c!"dignity", c!"dilemma", c!"dinner", c!"dinosaur", c!"direct", c!"dirt", c!"disagree", c!"discover",
  c!"disease", c!"dish", c!"dismiss", c!"disorder", c!"display", c!"distance", c!"divert", c!"divide"]

/-- bip39_english.h:517-548. -/
def block16 : List Bytes := [
  c!"divorce", c!"dizzy", c!"doctor", c!"document", c!"dog", c!"doll", c!"dolphin", c!"domain",
  c!"donate", c!"donkey", c!"donor", c!"door", c!"dose", c!"double", c!"dove", c!"draft",
  c!"dragon", c!"drama", c!"drastic", c!"draw", c!"dream", c!"dress", c!"drift", c!"drill",
  c!"drink", c!"drip", c!"drive", c!"drop", c!"drum", c!"dry", c!"duck", c!"dumb"]

/-- bip39_english.h:549-580. -/
def block17 : List Bytes := [
  c!"dune", c!"during", c!"dust", c!"dutch", c!"duty", c!"dwarf", c!"dynamic", c!"eager",
  c!"eagle", c!"early", c!"earn", c!"earth", c!"easily", c!"east", c!"easy", c!"echo",
  c!"ecology", c!"economy", c!"edge", c!"edit", c!"educate", c!"effort", c!"egg", c!"eight",
  c!"either", c!"elbow", c!"elder", c!"electric", c!"elegant", c!"element", c!"elephant", c!"elevator"]

/-- bip39_english.h:581-612. -/
def block18 : List Bytes := [
  c!"elite", c!"else", c!"embark", c!"embody", c!"embrace", c!"emerge", c!"emotion", c!"employ",
  c!"empower", c!"empty", c!"enable", c!"enact", c!"end", c!"endless", c!"endorse", c!"enemy",
  c!"energy", c!"enforce", c!"engage", c!"engine", c!"enhance", c!"enjoy", c!"enlist", c!"enough",
  c!"enrich", c!"enroll", c!"ensure", c!"enter", c!"entire", c!"entry", c!"envelope", c!"episode"]

/-- bip39_english.h:613-644. -/
def block19 : List Bytes := [
  c!"equal", c!"equip", c!"era", c!"erase", c!"erode", c!"erosion", c!"error", c!"erupt",
  c!"escape", c!"essay", c!"essence", c!"estate", c!"eternal", c!"ethics", c!"evidence", c!"evil",
  c!"evoke", c!"evolve", c!"exact", c!"example", c!"excess", c!"exchange", c!"excite", c!"exclude",
  c!"excuse", c!"execute", c!"exercise", c!"exhaust", c!"exhibit", c!"exile", c!"exist", c!"exit"]

/-- bip39_english.h:645-676. -/
def block20 : List Bytes := [
  c!"exotic", c!"expand", c!"expect", c!"expire", c!"explain", c!"expose", c!"express", c!"extend",
  c!"extra", c!"eye", c!"eyebrow", c!"fabric", c!"face", c!"faculty", c!"fade", c!"faint",
  c!"faith", c!"fall", c!"false", c!"fame", c!"family", c!"famous", c!"fan", c!"fancy",
  c!"fantasy", c!"farm", c!"fashion", c!"fat", c!"fatal", c!"father", c!"fatigue", c!"fault"]

/-- bip39_english.h:677-708. -/
def block21 : List Bytes := [
  c!"favorite", c!"feature", c!"february", c!"federal", c!"fee", c!"feed", c!"feel", c!"female",
  c!"fence", c!"festival", c!"fetch", c!"fever", c!"few", c!"fiber", c!"fiction", c!"field",
  c!"figure", c!"file", c!"film", c!"filter", c!"final", c!"find", c!"fine", c!"finger",
  c!"finish", c!"fire", c!"firm", c!"first", c!"fiscal", c!"fish", c!"fit", c!"fitness"]

/-- bip39_english.h:709-740. -/
def block22 : List Bytes := [
  c!"fix", c!"flag", c!"flame", c!"flash", c!"flat", c!"flavor", c!"flee", c!"flight",
  c!"flip", c!"float", c!"flock", c!"floor", c!"flower", c!"fluid", c!"flush", c!"fly",
  c!"foam", c!"focus", c!"fog", c!"foil", c!"fold", c!"follow", c!"food", c!"foot",
  c!"force", c!"forest", c!"forget", c!"fork", c!"fortune", c!"forum", c!"forward", c!"fossil"]

/-- bip39_english.h:741-772. -/
def block23 : List Bytes := [
  c!"foster", c!"found", c!"fox", c!"fragile", c!"frame", c!"frequent", c!"fresh", c!"friend",
  c!"fringe", c!"frog", c!"front", c!"frost", c!"frown", c!"frozen", c!"fruit", c!"fuel",
  c!"fun", c!"funny", c!"furnace", c!"fury", c!"future", c!"gadget", c!"gain", c!"galaxy",
  c!"gallery", c!"game", c!"gap", c!"garage", c!"garbage", c!"garden", c!"garlic", c!"garment"]

/-- bip39_english.h:773-804. -/
def block24 : List Bytes := [
  c!"gas", c!"gasp", c!"gate", c!"gather", c!"gauge", c!"gaze", c!"general", c!"genius",
  c!"genre", c!"gentle", c!"genuine", c!"gesture", c!"ghost", c!"giant", c!"gift", c!"giggle",
  c!"ginger", c!"giraffe", c!"girl", c!"give", c!"glad", c!"glance", c!"glare", c!"glass",
  c!"glide", c!"glimpse", c!"globe", c!"gloom", c!"glory", c!"glove", c!"glow", c!"glue"]

/-- bip39_english.h:805-836. -/
def block25 : List Bytes := [
  c!"goat", c!"goddess", c!"gold", c!"good", c!"goose", c!"gorilla", c!"gospel", c!"gossip",
  c!"govern", c!"gown", c!"grab", c!"grace", c!"grain", c!"grant", c!"grape", c!"grass",
  c!"gravity", c!"great", c!"green", c!"grid", c!"grief", c!"grit", c!"grocery", c!"group",
  c!"grow", c!"grunt", c!"guard", c!"guess", c!"guide", c!"guilt", c!"guitar", c!"gun"]

/-- bip39_english.h:837-868. -/
def block26 : List Bytes := [
  c!"gym", c!"habit", c!"hair", c!"half", c!"hammer", c!"hamster", c!"hand", c!"happy",
  c!"harbor", c!"hard", c!"harsh", c!"harvest", c!"hat", c!"have", c!"hawk", c!"hazard",
  c!"head", c!"health", c!"heart", c!"heavy", c!"hedgehog", c!"height", c!"hello", c!"helmet",
  c!"help", c!"hen", c!"hero", c!"hidden", c!"high", c!"hill", c!"hint", c!"hip"]

/-- bip39_english.h:869-900. -/
def block27 : List Bytes := [
  c!"hire", c!"history", c!"hobby", c!"hockey", c!"hold", c!"hole", c!"holiday", c!"hollow",
  c!"home", c!"honey", c!"hood", c!"hope", c!"horn", c!"horror", c!"horse", c!"hospital",
  c!"host", c!"hotel", c!"hour", c!"hover", c!"hub", c!"huge", c!"human", c!"humble",
  c!"humor", c!"hundred", c!"hungry", c!"hunt", c!"hurdle", c!"hurry", c!"hurt", c!"husband"]

/-- bip39_english.h:901-932. -/
def block28 : List Bytes := [
  c!"hybrid", c!"ice", c!"icon", c!"idea", c!"identify", c!"idle", c!"ignore", c!"ill",
  c!"illegal", c!"illness", c!"image", c!"imitate", c!"immense", c!"immune", c!"impact", c!"impose",
  c!"improve", c!"impulse", c!"inch", c!"include", c!"income", c!"increase", c!"index", c!"indicate",
  c!"indoor", c!"industry", c!"infant", c!"inflict", c!"inform", c!"inhale", c!"inherit", c!"initial"]

/-- bip39_english.h:933-964. -/
def block29 : List Bytes := [
  c!"inject", c!"injury", c!"inmate", c!"inner", c!"innocent", c!"input", c!"inquiry", c!"insane",
  c!"insect", c!"inside", c!"inspire", c!"install", c!"intact", c!"interest", c!"into", c!"invest",
  c!"invite", c!"involve", c!"iron", c!"island", c!"isolate", c!"issue", c!"item", c!"ivory",
  c!"jacket", c!"jaguar", c!"jar", c!"jazz", c!"jealous", c!"jeans", c!"jelly", c!"jewel"]

/-- bip39_english.h:965-996. -/
def block30 : List Bytes := [
  c!"job", c!"join", c!"joke", c!"journey", c!"joy", c!"judge", c!"juice", c!"jump",
  c!"jungle", c!"junior", c!"junk", c!"just", c!"kangaroo", c!"keen", c!"keep", c!"ketchup",
  c!"key", c!"kick", c!"kid", c!"kidney", c!"kind", c!"kingdom", c!"kiss", c!"kit",
  c!"kitchen", c!"kite", c!"kitten", c!"kiwi", c!"knee", c!"knife", c!"knock", c!"know"]

/-- bip39_english.h:997-1028. -/
def block31 : List Bytes := [
  c!"lab", c!"label", c!"labor", c!"ladder", c!"lady", c!"lake", c!"lamp", c!"language",
  c!"laptop", c!"large", c!"later", c!"latin", c!"laugh", c!"laundry", c!"lava", c!"law",
  c!"lawn", c!"lawsuit", c!"layer", c!"lazy", c!"leader", c!"leaf", c!"learn", c!"leave",
  c!"lecture", c!"left", c!"leg", c!"legal", c!"legend", c!"leisure", c!"lemon", c!"lend"]

/-- bip39_english.h:1029-1060. -/
def block32 : List Bytes := [
  c!"length", c!"lens", c!"leopard", c!"lesson", c!"letter", c!"level", c!"liar", c!"liberty",
  c!"library", c!"license", c!"life", c!"lift", c!"light", c!"like", c!"limb", c!"limit",
  c!"link", c!"lion", c!"liquid", c!"list", c!"little", c!"live", c!"lizard", c!"load",
  c!"loan", c!"lobster", c!"local", c!"lock", c!"logic", c!"lonely", c!"long", c!"loop"]

/-- bip39_english.h:1061-1092. -/
def block33 : List Bytes := [
  c!"lottery", c!"loud", c!"lounge", c!"love", c!"loyal", c!"lucky", c!"luggage", c!"lumber",
  c!"lunar", c!"lunch", c!"luxury", c!"lyrics", c!"machine", c!"mad", c!"magic", c!"magnet",
  c!"maid", c!"mail", c!"main", c!"major", c!"make", c!"mammal", c!"man", c!"manage",
  c!"mandate", c!"mango", c!"mansion", c!"manual", c!"maple", c!"marble", c!"march", c!"margin"]

/-- bip39_english.h:1093-1124. -/
def block34 : List Bytes := [
  c!"marine", c!"market", c!"marriage", c!"mask", c!"mass", c!"master", c!"match", c!"material",
  c!"math", c!"matrix", c!"matter", c!"maximum", c!"maze", c!"meadow", c!"mean", c!"measure",
  c!"meat", c!"mechanic", c!"medal", c!"media", c!"melody", c!"melt", c!"member", c!"memory",
  c!"mention", c!"menu", c!"mercy", c!"merge", c!"merit", c!"merry", c!"mesh", c!"message"]

/-- bip39_english.h:1125-1156. -/
def block35 : List Bytes := [
  c!"metal", c!"method", c!"middle", c!"midnight", c!"milk", c!"million", c!"mimic", c!"mind",
  c!"minimum", c!"minor", c!"minute", c!"miracle", c!"mirror", c!"misery", c!"miss", c!"mistake",
  c!"mix", c!"mixed", c!"mixture", c!"mobile", c!"model", c!"modify", c!"mom", c!"moment",
  c!"monitor", c!"monkey", c!"monster", c!"month", c!"moon", c!"moral", c!"more", c!"morning"]

/-- bip39_english.h:1157-1188. -/
def block36 : List Bytes := [
  c!"mosquito", c!"mother", c!"motion", c!"motor", c!"mountain", c!"mouse", c!"move", c!"movie",
  c!"much", c!"muffin", c!"mule", c!"multiply", c!"muscle", c!"museum", c!"mushroom", c!"music",
  c!"must", c!"mutual", c!"myself", c!"mystery", c!"myth", c!"naive", c!"name", c!"napkin",
  c!"narrow", c!"nasty", c!"nation", c!"nature", c!"near", c!"neck", c!"need", c!"negative"]

/-- bip39_english.h:1189-1220. -/
def block37 : List Bytes := [
  c!"neglect", c!"neither", c!"nephew", c!"nerve", c!"nest", c!"net", c!"network", c!"neutral",
  c!"never", c!"news", c!"next", c!"nice", c!"night", c!"noble", c!"noise", c!"nominee",
  c!"noodle", c!"normal", c!"north", c!"nose", c!"notable", c!"note", c!"nothing", c!"notice",
  c!"novel", c!"now", c!"nuclear", c!"number", c!"nurse", c!"nut", c!"oak", c!"obey"]

/-- bip39_english.h:1221-1252. -/
def block38 : List Bytes := [
  c!"object", c!"oblige", c!"obscure", c!"observe", c!"obtain", c!"obvious", c!"occur", c!"ocean",
  c!"october", c!"odor", c!"off", c!"offer", c!"office", c!"often", c!"oil", c!"okay",
  c!"old", c!"olive", c!"olympic", c!"omit", c!"once", c!"one", c!"onion", c!"online",
  c!"only", c!"open", c!"opera", c!"opinion", c!"oppose", c!"option", c!"orange", c!"orbit"]

/-- bip39_english.h:1253-1284. -/
def block39 : List Bytes := [
  c!"orchard", c!"order", c!"ordinary", c!"organ", c!"orient", c!"original", c!"orphan", c!"ostrich",
  c!"other", c!"outdoor", c!"outer", c!"output", c!"outside", c!"oval", c!"oven", c!"over",
  c!"own", c!"owner", c!"oxygen", c!"oyster", c!"ozone", c!"pact", c!"paddle", c!"page",
  c!"pair", c!"palace", c!"palm", c!"panda", c!"panel", c!"panic", c!"panther", c!"paper"]

/-- bip39_english.h:1285-1316. -/
def block40 : List Bytes := [
  c!"parade", c!"parent", c!"park", c!"parrot", c!"party", c!"pass", c!"patch", c!"path",
  c!"patient", c!"patrol", c!"pattern", c!"pause", c!"pave", c!"payment", c!"peace", c!"peanut",
  c!"pear", c!"peasant", c!"pelican", c!"pen", c!"penalty", c!"pencil", c!"people", c!"pepper",
  c!"perfect", c!"permit", c!"person", c!"pet", c!"phone", c!"photo", c!"phrase", c!"physical"]

/-- bip39_english.h:1317-1348. -/
def block41 : List Bytes := [
  c!"piano", c!"picnic", c!"picture", c!"piece", c!"pig", c!"pigeon", c!"pill", c!"pilot",
  c!"pink", c!"pioneer", c!"pipe", c!"pistol", c!"pitch", c!"pizza", c!"place", c!"planet",
  c!"plastic", c!"plate", c!"play", c!"please", c!"pledge", c!"pluck", c!"plug", c!"plunge",
  c!"poem", c!"poet", c!"point", c!"polar", c!"pole", c!"police", c!"pond", c!"pony"]

/-- bip39_english.h:1349-1380. -/
def block42 : List Bytes := [
  c!"pool", c!"popular", c!"portion", c!"position", c!"possible", c!"post", c!"potato", c!"pottery",
  c!"poverty", c!"powder", c!"power", c!"practice", c!"praise", c!"predict", c!"prefer", c!"prepare",
  c!"present", c!"pretty", c!"prevent", c!"price", c!"pride", c!"primary", c!"print", c!"priority",
  c!"prison", c!"private", c!"prize", c!"problem", c!"process", c!"produce", c!"profit", c!"program"]

/-- bip39_english.h:1381-1412. -/
def block43 : List Bytes := [
  c!"project", c!"promote", c!"proof", c!"property", c!"prosper", c!"protect", c!"proud", c!"provide",
  c!"public", c!"pudding", c!"pull", c!"pulp", c!"pulse", c!"pumpkin", c!"punch", c!"pupil",
  c!"puppy", c!"purchase", c!"purity", c!"purpose", c!"purse", c!"push", c!"put", c!"puzzle",
  c!"pyramid", c!"quality", c!"quantum", c!"quarter", c!"question", c!"quick", c!"quit", c!"quiz"]

/-- bip39_english.h:1413-1444. -/
def block44 : List Bytes := [
  c!"quote", c!"rabbit", c!"raccoon", c!"race", c!"rack", c!"radar", c!"radio", c!"rail",
  c!"rain", c!"raise", c!"rally", c!"ramp", c!"ranch", c!"random", c!"range", c!"rapid",
  c!"rare", c!"rate", c!"rather", c!"raven", c!"raw", c!"razor", c!"ready", c!"real",
  c!"reason", c!"rebel", c!"rebuild", c!"recall", c!"receive", c!"recipe", c!"record", c!"recycle"]

/-- bip39_english.h:1445-1476. -/
def block45 : List Bytes := [
  c!"reduce", c!"reflect", c!"reform", c!"refuse", c!"region", c!"regret", c!"regular", c!"reject",
  c!"relax", c!"release", c!"relief", c!"rely", c!"remain", c!"remember", c!"remind", c!"remove",
  c!"render", c!"renew", c!"rent", c!"reopen", c!"repair", c!"repeat", c!"replace", c!"report",
  c!"require", c!"rescue", c!"resemble", c!"resist", c!"resource", c!"response", c!"result", c!"retire"]

/-- bip39_english.h:1477-1508. -/
def block46 : List Bytes := [
  c!"retreat", c!"return", c!"reunion", c!"reveal", c!"review", c!"reward", c!"rhythm", c!"rib",
  c!"ribbon", c!"rice", c!"rich", c!"ride", c!"ridge", c!"rifle", c!"right", c!"rigid",
  c!"ring", c!"riot", c!"ripple", c!"risk", c!"ritual", c!"rival", c!"river", c!"road",
  c!"roast", c!"robot", c!"robust", c!"rocket", c!"romance", c!"roof", c!"rookie", c!"room"]

/-- bip39_english.h:1509-1540. -/
def block47 : List Bytes := [
  c!"rose", c!"rotate", c!"rough", c!"round", c!"route", c!"royal", c!"rubber", c!"rude",
  c!"rug", c!"rule", c!"run", c!"runway", c!"rural", c!"sad", c!"saddle", c!"sadness",
  c!"safe", c!"sail", c!"salad", c!"salmon", c!"salon", c!"salt", c!"salute", c!"same",
  c!"sample", c!"sand", c!"satisfy", c!"satoshi", c!"sauce", c!"sausage", c!"save", c!"say"]

/-- bip39_english.h:1541-1572. -/
def block48 : List Bytes := [
  c!"scale", c!"scan", c!"scare", c!"scatter", c!"scene", c!"scheme", c!"school", c!"science",
  c!"scissors", c!"scorpion", c!"scout", c!"scrap", c!"screen", c!"script", c!"scrub", c!"sea",
  c!"search", c!"season", c!"seat", c!"second", c!"secret", c!"section", c!"security", c!"seed",
  c!"seek", c!"segment", c!"select", c!"sell", c!"seminar", c!"senior", c!"sense", c!"sentence"]

/-- bip39_english.h:1573-1604. -/
def block49 : List Bytes := [
  c!"series", c!"service", c!"session", c!"settle", c!"setup", c!"seven", c!"shadow", c!"shaft",
  c!"shallow", c!"share", c!"shed", c!"shell", c!"sheriff", c!"shield", c!"shift", c!"shine",
  c!"ship", c!"shiver", c!"shock", c!"shoe", c!"shoot", c!"shop", c!"short", c!"shoulder",
  c!"shove", c!"shrimp", c!"shrug", c!"shuffle", c!"shy", c!"sibling", c!"sick", c!"side"]

/-- bip39_english.h:1605-1636. -/
def block50 : List Bytes := [
  c!"siege", c!"sight", c!"sign", c!"silent", c!"silk", c!"silly", c!"silver", c!"similar",
  c!"simple", c!"since", c!"sing", c!"siren", c!"sister", c!"situate", c!"six", c!"size",
  c!"skate", c!"sketch", c!"ski", c!"skill", c!"skin", c!"skirt", c!"skull", c!"slab",
  c!"slam", c!"sleep", c!"slender", c!"slice", c!"slide", c!"slight", c!"slim", c!"slogan"]

/-- bip39_english.h:1637-1668. -/
def block51 : List Bytes := [
  c!"slot", c!"slow", c!"slush", c!"small", c!"smart", c!"smile", c!"smoke", c!"smooth",
  c!"snack", c!"snake", c!"snap", c!"sniff", c!"snow", c!"soap", c!"soccer", c!"social",
  c!"sock", c!"soda", c!"soft", c!"solar", c!"soldier", c!"solid", c!"solution", c!"solve",
  c!"someone", c!"song", c!"soon", c!"sorry", c!"sort", c!"soul", c!"sound", c!"soup"]

/-- bip39_english.h:1669-1700. -/
def block52 : List Bytes := [
  c!"source", c!"south", c!"space", c!"spare", c!"spatial", c!"spawn", c!"speak", c!"special",
  c!"speed", c!"spell", c!"spend", c!"sphere", c!"spice", c!"spider", c!"spike", c!"spin",
  c!"spirit", c!"split", c!"spoil", c!"sponsor", c!"spoon", c!"sport", c!"spot", c!"spray",
  c!"spread", c!"spring", c!"spy", c!"square", c!"squeeze", c!"squirrel", c!"stable", c!"stadium"]

/-- bip39_english.h:1701-1732. -/
def block53 : List Bytes := [
  c!"staff", c!"stage", c!"stairs", c!"stamp", c!"stand", c!"start", c!"state", c!"stay",
  c!"steak", c!"steel", c!"stem", c!"step", c!"stereo", c!"stick", c!"still", c!"sting",
  c!"stock", c!"stomach", c!"stone", c!"stool", c!"story", c!"stove", c!"strategy", c!"street",
  c!"strike", c!"strong", c!"struggle", c!"student", c!"stuff", c!"stumble", c!"style", c!"subject"]

/-- bip39_english.h:1733-1764. -/
def block54 : List Bytes := [
  c!"submit", c!"subway", c!"success", c!"such", c!"sudden", c!"suffer", c!"sugar", c!"suggest",
  c!"suit", c!"summer", c!"sun", c!"sunny", c!"sunset", c!"super", c!"supply", c!"supreme",
  c!"sure", c!"surface", c!"surge", c!"surprise", c!"surround", c!"survey", c!"suspect", c!"sustain",
  c!"swallow", c!"swamp", c!"swap", c!"swarm", c!"swear", c!"sweet", c!"swift", c!"swim"]

/-- bip39_english.h:1765-1796. -/
def block55 : List Bytes := [
  c!"swing", c!"switch", c!"sword", c!"symbol", c!"symptom", c!"syrup", c!"system", c!"table",
  c!"tackle", c!"tag", c!"tail", c!"talent", c!"talk", c!"tank", c!"tape", c!"target",
  c!"task", c!"taste", c!"tattoo", c!"taxi", c!"teach", c!"team", c!"tell", c!"ten",
  c!"tenant", c!"tennis", c!"tent", c!"term", c!"test", c!"text", c!"thank", c!"that"]

/-- bip39_english.h:1797-1828. -/
def block56 : List Bytes := [
  c!"theme", c!"then", c!"theory", c!"there", c!"they", c!"thing", c!"this", c!"thought",
  c!"three", c!"thrive", c!"throw", c!"thumb", c!"thunder", c!"ticket", c!"tide", c!"tiger",
  c!"tilt", c!"timber", c!"time", c!"tiny", c!"tip", c!"tired", c!"tissue", c!"title",
  c!"toast", c!"tobacco", c!"today", c!"toddler", c!"toe", c!"together", c!"toilet", c!"token"]

/-- bip39_english.h:1829-1860. -/
def block57 : List Bytes := [
  c!"tomato", c!"tomorrow", c!"tone", c!"tongue", c!"tonight", c!"tool", c!"tooth", c!"top",
  c!"topic", c!"topple", c!"torch", c!"tornado", c!"tortoise", c!"toss", c!"total", c!"tourist",
  c!"toward", c!"tower", c!"town", c!"toy", c!"track", c!"trade", c!"traffic", c!"tragic",
  c!"train", c!"transfer", c!"trap", c!"trash", c!"travel", c!"tray", c!"treat", c!"tree"]

/-- bip39_english.h:1861-1892. -/
def block58 : List Bytes := [
  c!"trend", c!"trial", c!"tribe", c!"trick", c!"trigger", c!"trim", c!"trip", c!"trophy",
  c!"trouble", c!"truck", c!"true", c!"truly", c!"trumpet", c!"trust", c!"truth", c!"try",
  c!"tube", c!"tuition", c!"tumble", c!"tuna", c!"tunnel", c!"turkey", c!"turn", c!"turtle",
  c!"twelve", c!"twenty", c!"twice", c!"twin", c!"twist", c!"two", c!"type", c!"typical"]

/-- bip39_english.h:1893-1924. -/
def block59 : List Bytes := [
  c!"ugly", c!"umbrella", c!"unable", c!"unaware", c!"uncle", c!"uncover", c!"under", c!"undo",
  c!"unfair", c!"unfold", c!"unhappy", c!"uniform", c!"unique", c!"unit", c!"universe", c!"unknown",
  c!"unlock", c!"until", c!"unusual", c!"unveil", c!"update", c!"upgrade", c!"uphold", c!"upon",
  c!"upper", c!"upset", c!"urban", c!"urge", c!"usage", c!"use", c!"used", c!"useful"]

/-- bip39_english.h:1925-1956. -/
def block60 : List Bytes := [
  c!"useless", c!"usual", c!"utility", c!"vacant", c!"vacuum", c!"vague", c!"valid", c!"valley",
  c!"valve", c!"van", c!"vanish", c!"vapor", c!"various", c!"vast", c!"vault", c!"vehicle",
  c!"velvet", c!"vendor", c!"venture", c!"venue", c!"verb", c!"verify", c!"version", c!"very",
  c!"vessel", c!"veteran", c!"viable", c!"vibrant", c!"vicious", c!"victory", c!"video", c!"view"]

/-- bip39_english.h:1957-1988. -/
def block61 : List Bytes := [
  c!"village", c!"vintage", c!"violin", c!"virtual", c!"virus", c!"visa", c!"visit", c!"visual",
  c!"vital", c!"vivid", c!"vocal", c!"voice", c!"void", c!"volcano", c!"volume", c!"vote",
  c!"voyage", c!"wage", c!"wagon", c!"wait", c!"walk", c!"wall", c!"walnut", c!"want",
  c!"warfare", c!"warm", c!"warrior", c!"wash", c!"wasp", c!"waste", c!"water", c!"wave"]

/-- bip39_english.h:1989-2020. -/
def block62 : List Bytes := [
  c!"way", c!"wealth", c!"weapon", c!"wear", c!"weasel", c!"weather", c!"web", c!"wedding",
  c!"weekend", c!"weird", c!"welcome", c!"west", c!"wet", c!"whale", c!"what", c!"wheat",
  c!"wheel", c!"when", c!"where", c!"whip", c!"whisper", c!"wide", c!"width", c!"wife",
  c!"wild", c!"will", c!"win", c!"window", c!"wine", c!"wing", c!"wink", c!"winner"]

/-- bip39_english.h:2021-2052. -/
def block63 : List Bytes := [
  c!"winter", c!"wire", c!"wisdom", c!"wise", c!"wish", c!"witness", c!"wolf", c!"woman",
  c!"wonder", c!"wood", c!"wool", c!"word", c!"work", c!"world", c!"worry", c!"worth",
  c!"wrap", c!"wreck", c!"wrestle", c!"wrist", c!"write", c!"wrong", c!"yard", c!"year",
  c!"yellow", c!"you", c!"young", c!"youth", c!"zebra", c!"zero", c!"zone", c!"zoo"]

/-- bip39_english.h:4-2053 `bip39_wordlist`. -/
def words : List Bytes :=
  block0 ++ block1 ++ block2 ++ block3 ++ block4 ++ block5 ++ block6 ++ block7 ++
  block8 ++ block9 ++ block10 ++ block11 ++ block12 ++ block13 ++ block14 ++ block15 ++
  block16 ++ block17 ++ block18 ++ block19 ++ block20 ++ block21 ++ block22 ++ block23 ++
  block24 ++ block25 ++ block26 ++ block27 ++ block28 ++ block29 ++ block30 ++ block31 ++
  block32 ++ block33 ++ block34 ++ block35 ++ block36 ++ block37 ++ block38 ++ block39 ++
  block40 ++ block41 ++ block42 ++ block43 ++ block44 ++ block45 ++ block46 ++ block47 ++
  block48 ++ block49 ++ block50 ++ block51 ++ block52 ++ block53 ++ block54 ++ block55 ++
  block56 ++ block57 ++ block58 ++ block59 ++ block60 ++ block61 ++ block62 ++ block63

end Nostr.Hd
