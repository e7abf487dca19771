/-
The locations of ILCD that have an identifier in EcoSpold2.
Generated from src/Lavoisier/Mappings/ilcd1_to_ecs2_geographies.json (all 479 entries, by identifier).
-/
import Verif.Py

namespace Verif.Naming

/-- Part 1 of ilcd1_to_ecs2_geographies.json. -/
def geographies1 : List (Str × Str) := [
  (c!"IN-TR", c!"001c936c-cf14-46dd-a99e-b1ef30f51c96"),
  (c!"BR-MG", c!"00e9e1a4-0cf8-4f07-8bad-fd782ed54382"),
  (c!"IN-SK", c!"01c44dfa-113d-427b-81b9-1d4fde230f93"),
  (c!"NAFTA", c!"047116e2-d932-11de-9627-0019e336be3a"),
  (c!"IAI Area, Gulf Cooperation Council", c!"058885d6-d0a9-48ff-8d95-4baacf75ce97"),
  (c!"CN-QH", c!"06422af3-6431-4f6f-a555-7c0e008bce8b"),
  (c!"CN-HB", c!"06bbed25-6ebe-48aa-9b92-300bddaeb2b7"),
  (c!"RER", c!"0723d252-7e2a-11de-9820-0019e336be3a"),
  (c!"UCTE without Germany and France", c!"088a91da-e0cc-11de-823b-0019e336be3a"),
  (c!"AG", c!"09581fbc-7d7e-11de-9ae2-0019e336be3a"),
  (c!"DZ", c!"095ec4f2-7d7e-11de-9ae2-0019e336be3a"),
  (c!"AZ", c!"096781b4-7d7e-11de-9ae2-0019e336be3a"),
  (c!"AL", c!"097c2556-7d7e-11de-9ae2-0019e336be3a"),
  (c!"AM", c!"09818690-7d7e-11de-9ae2-0019e336be3a"),
  (c!"AO", c!"098771a4-7d7e-11de-9ae2-0019e336be3a"),
  (c!"AS", c!"098df75e-7d7e-11de-9ae2-0019e336be3a"),
  (c!"AR", c!"09951f84-7d7e-11de-9ae2-0019e336be3a"),
  (c!"AU", c!"09b1a988-7d7e-11de-9ae2-0019e336be3a"),
  (c!"BH", c!"09cf6a0e-7d7e-11de-9ae2-0019e336be3a"),
  (c!"BB", c!"09d2df90-7d7e-11de-9ae2-0019e336be3a"),
  (c!"BM", c!"09d5d736-7d7e-11de-9ae2-0019e336be3a"),
  (c!"BS", c!"09da334e-7d7e-11de-9ae2-0019e336be3a"),
  (c!"RLA", c!"09db3260-7e2a-11de-9820-0019e336be3a"),
  (c!"BD", c!"09e8ed3a-7d7e-11de-9ae2-0019e336be3a"),
  (c!"BZ", c!"09f36814-7d7e-11de-9ae2-0019e336be3a"),
  (c!"BA", c!"09f7dc00-7d7e-11de-9ae2-0019e336be3a"),
  (c!"BO", c!"09fd4f82-7d7e-11de-9ae2-0019e336be3a"),
  (c!"MM", c!"0a06dd7c-7d7e-11de-9ae2-0019e336be3a"),
  (c!"BJ", c!"0a13f5c0-7d7e-11de-9ae2-0019e336be3a"),
  (c!"SB", c!"0a1ab78e-7d7e-11de-9ae2-0019e336be3a"),
  (c!"BR", c!"0a2c8c66-7d7e-11de-9ae2-0019e336be3a"),
  (c!"BG", c!"0a46f524-7d7e-11de-9ae2-0019e336be3a"),
  (c!"BN", c!"0a4bff9c-7d7e-11de-9ae2-0019e336be3a"),
  (c!"AUS-WAS", c!"0ae22e97-4563-473f-9209-3221544a097f"),
  (c!"CA", c!"0b2a8a96-7d7e-11de-9ae2-0019e336be3a"),
  (c!"KH", c!"0c0d5768-7d7e-11de-9ae2-0019e336be3a"),
  (c!"LK", c!"0c13823c-7d7e-11de-9ae2-0019e336be3a"),
  (c!"CG", c!"0c193b28-7d7e-11de-9ae2-0019e336be3a"),
  (c!"CD", c!"0c29d73a-7d7e-11de-9ae2-0019e336be3a"),
  (c!"BI", c!"0c33b64c-7d7e-11de-9ae2-0019e336be3a")]

/-- Part 2 of ilcd1_to_ecs2_geographies.json. -/
def geographies2 : List (Str × Str) := [
  (c!"CN", c!"0c40fa1e-7d7e-11de-9ae2-0019e336be3a"),
  (c!"AF", c!"0c608726-7d7e-11de-9ae2-0019e336be3a"),
  (c!"BT", c!"0c67c0cc-7d7e-11de-9ae2-0019e336be3a"),
  (c!"CL", c!"0c852cde-7d7e-11de-9ae2-0019e336be3a"),
  (c!"KY", c!"0cb02330-7d7e-11de-9ae2-0019e336be3a"),
  (c!"CM", c!"0cb47d54-7d7e-11de-9ae2-0019e336be3a"),
  (c!"TD", c!"0cbbba9c-7d7e-11de-9ae2-0019e336be3a"),
  (c!"KM", c!"0cc14d18-7d7e-11de-9ae2-0019e336be3a"),
  (c!"CO", c!"0cc6c45a-7d7e-11de-9ae2-0019e336be3a"),
  (c!"CR", c!"0cd04f34-7d7e-11de-9ae2-0019e336be3a"),
  (c!"CF", c!"0cd759a0-7d7e-11de-9ae2-0019e336be3a"),
  (c!"CU", c!"0ce31d3a-7d7e-11de-9ae2-0019e336be3a"),
  (c!"CV", c!"0cec2628-7d7e-11de-9ae2-0019e336be3a"),
  (c!"CK", c!"0cf01346-7d7e-11de-9ae2-0019e336be3a"),
  (c!"CY", c!"0cf40280-7d7e-11de-9ae2-0019e336be3a"),
  (c!"DK", c!"0cf950f0-7d7e-11de-9ae2-0019e336be3a"),
  (c!"DJ", c!"0d0167a4-7d7e-11de-9ae2-0019e336be3a"),
  (c!"DM", c!"0d04edb6-7d7e-11de-9ae2-0019e336be3a"),
  (c!"DO", c!"0d083d04-7d7e-11de-9ae2-0019e336be3a"),
  (c!"EC", c!"0d0e72a0-7d7e-11de-9ae2-0019e336be3a"),
  (c!"EG", c!"0d168940-7d7e-11de-9ae2-0019e336be3a"),
  (c!"IE", c!"0d1de104-7d7e-11de-9ae2-0019e336be3a"),
  (c!"GQ", c!"0d245584-7d7e-11de-9ae2-0019e336be3a"),
  (c!"EE", c!"0d28a62a-7d7e-11de-9ae2-0019e336be3a"),
  (c!"ER", c!"0d2ed0a4-7d7e-11de-9ae2-0019e336be3a"),
  (c!"IN-GJ", c!"0d325613-94aa-4a65-8014-d3f6ead19eb3"),
  (c!"SV", c!"0d349e44-7d7e-11de-9ae2-0019e336be3a"),
  (c!"ET", c!"0d3920fe-7d7e-11de-9ae2-0019e336be3a"),
  (c!"AT", c!"0d3f4416-7d7e-11de-9ae2-0019e336be3a"),
  (c!"CZ", c!"0d45a5d6-7d7e-11de-9ae2-0019e336be3a"),
  (c!"GF", c!"0d4ac2be-7d7e-11de-9ae2-0019e336be3a"),
  (c!"FI", c!"0d512a50-7d7e-11de-9ae2-0019e336be3a"),
  (c!"FJ", c!"0d5bcf64-7d7e-11de-9ae2-0019e336be3a"),
  (c!"FK", c!"0d627bf2-7d7e-11de-9ae2-0019e336be3a"),
  (c!"FM", c!"0d684cbc-7d7e-11de-9ae2-0019e336be3a"),
  (c!"PF", c!"0d6d36be-7d7e-11de-9ae2-0019e336be3a"),
  (c!"FR", c!"0d751636-7d7e-11de-9ae2-0019e336be3a"),
  (c!"GM", c!"0d7e9abc-7d7e-11de-9ae2-0019e336be3a"),
  (c!"GA", c!"0d8399c2-7d7e-11de-9ae2-0019e336be3a"),
  (c!"GE", c!"0d8feaa6-7d7e-11de-9ae2-0019e336be3a")]

/-- Part 3 of ilcd1_to_ecs2_geographies.json. -/
def geographies3 : List (Str × Str) := [
  (c!"GH", c!"0d95a34c-7d7e-11de-9ae2-0019e336be3a"),
  (c!"GD", c!"0d9a9384-7d7e-11de-9ae2-0019e336be3a"),
  (c!"GL", c!"0dc048d6-7d7e-11de-9ae2-0019e336be3a"),
  (c!"DE", c!"0e0e1020-7d7e-11de-9ae2-0019e336be3a"),
  (c!"GU", c!"0e1a52e0-7d7e-11de-9ae2-0019e336be3a"),
  (c!"GR", c!"0e22b962-7d7e-11de-9ae2-0019e336be3a"),
  (c!"GT", c!"0e2fbd60-7d7e-11de-9ae2-0019e336be3a"),
  (c!"GN", c!"0e34b6f8-7d7e-11de-9ae2-0019e336be3a"),
  (c!"GY", c!"0e3b3d98-7d7e-11de-9ae2-0019e336be3a"),
  (c!"HT", c!"0e422e82-7d7e-11de-9ae2-0019e336be3a"),
  (c!"HN", c!"0e4809f6-7d7e-11de-9ae2-0019e336be3a"),
  (c!"HR", c!"0e4ef37e-7d7e-11de-9ae2-0019e336be3a"),
  (c!"HU", c!"0e56bc44-7d7e-11de-9ae2-0019e336be3a"),
  (c!"IS", c!"0e5d5856-7d7e-11de-9ae2-0019e336be3a"),
  (c!"IN", c!"0e6a7860-7d7e-11de-9ae2-0019e336be3a"),
  (c!"IR", c!"0ea9e766-7d7e-11de-9ae2-0019e336be3a"),
  (c!"IL", c!"0eb3bcbe-7d7e-11de-9ae2-0019e336be3a"),
  (c!"IT", c!"0ebb28b4-7d7e-11de-9ae2-0019e336be3a"),
  (c!"CI", c!"0ec6dff6-7d7e-11de-9ae2-0019e336be3a"),
  (c!"IQ", c!"0ecd6952-7d7e-11de-9ae2-0019e336be3a"),
  (c!"JP", c!"0ed905c8-7d7e-11de-9ae2-0019e336be3a"),
  (c!"JM", c!"0eed3c64-7d7e-11de-9ae2-0019e336be3a"),
  (c!"JO", c!"0ef0fe6c-7d7e-11de-9ae2-0019e336be3a"),
  (c!"KE", c!"0ef4e126-7d7e-11de-9ae2-0019e336be3a"),
  (c!"KG", c!"0efacce4-7d7e-11de-9ae2-0019e336be3a"),
  (c!"KP", c!"0f0215a8-7d7e-11de-9ae2-0019e336be3a"),
  (c!"KI", c!"0f0882c6-7d7e-11de-9ae2-0019e336be3a"),
  (c!"KR", c!"0f0f980e-7d7e-11de-9ae2-0019e336be3a"),
  (c!"KW", c!"0f16e870-7d7e-11de-9ae2-0019e336be3a"),
  (c!"KZ", c!"0f1fdb74-7d7e-11de-9ae2-0019e336be3a"),
  (c!"LA", c!"0f2f07ac-7d7e-11de-9ae2-0019e336be3a"),
  (c!"LB", c!"0f35d820-7d7e-11de-9ae2-0019e336be3a"),
  (c!"LV", c!"0f3a36f4-7d7e-11de-9ae2-0019e336be3a"),
  (c!"BY", c!"0f405034-7d7e-11de-9ae2-0019e336be3a"),
  (c!"LT", c!"0f46d4ea-7d7e-11de-9ae2-0019e336be3a"),
  (c!"LR", c!"0f4c70f8-7d7e-11de-9ae2-0019e336be3a"),
  (c!"SK", c!"0f515f00-7d7e-11de-9ae2-0019e336be3a"),
  (c!"LI", c!"0f55e480-7d7e-11de-9ae2-0019e336be3a"),
  (c!"LY", c!"0f59bb46-7d7e-11de-9ae2-0019e336be3a"),
  (c!"MG", c!"0f6066da-7d7e-11de-9ae2-0019e336be3a")]

/-- Part 4 of ilcd1_to_ecs2_geographies.json. -/
def geographies4 : List (Str × Str) := [
  (c!"MQ", c!"0f671a66-7d7e-11de-9ae2-0019e336be3a"),
  (c!"MN", c!"0f6c1a98-7d7e-11de-9ae2-0019e336be3a"),
  (c!"MS", c!"0f759550-7d7e-11de-9ae2-0019e336be3a"),
  (c!"MK", c!"0f78e944-7d7e-11de-9ae2-0019e336be3a"),
  (c!"CN-HL", c!"0f7b1e31-0d0b-404a-994b-e3cd1b7586f0"),
  (c!"ML", c!"0f7d8030-7d7e-11de-9ae2-0019e336be3a"),
  (c!"MA", c!"0f848e98-7d7e-11de-9ae2-0019e336be3a"),
  (c!"MU", c!"0f8a5012-7d7e-11de-9ae2-0019e336be3a"),
  (c!"MR", c!"0f8e6c2e-7d7e-11de-9ae2-0019e336be3a"),
  (c!"MT", c!"0f9402ce-7d7e-11de-9ae2-0019e336be3a"),
  (c!"OM", c!"0f980b80-7d7e-11de-9ae2-0019e336be3a"),
  (c!"MV", c!"0f9f2f00-7d7e-11de-9ae2-0019e336be3a"),
  (c!"MX", c!"0fa9a53e-7d7e-11de-9ae2-0019e336be3a"),
  (c!"MY", c!"0fbd80a4-7d7e-11de-9ae2-0019e336be3a"),
  (c!"MZ", c!"0fc883d2-7d7e-11de-9ae2-0019e336be3a"),
  (c!"IAI Area, Russia & RER w/o EU27 & EFTA", c!"0fc981f0-eb14-436c-834f-c6ce005a4dc4"),
  (c!"MW", c!"0fd0c588-7d7e-11de-9ae2-0019e336be3a"),
  (c!"NC", c!"0fdb5bec-7d7e-11de-9ae2-0019e336be3a"),
  (c!"NU", c!"0fe1621c-7d7e-11de-9ae2-0019e336be3a"),
  (c!"Dhekelia Base", c!"0fe2ebfb-0eb4-4f42-8ec4-628d26f61f77"),
  (c!"NE", c!"0fe7b522-7d7e-11de-9ae2-0019e336be3a"),
  (c!"AW", c!"0fec983a-7d7e-11de-9ae2-0019e336be3a"),
  (c!"RNA", c!"0fecb5e8-7e2a-11de-9820-0019e336be3a"),
  (c!"AI", c!"0fefde28-7d7e-11de-9ae2-0019e336be3a"),
  (c!"BE", c!"0ff33cbc-7d7e-11de-9ae2-0019e336be3a"),
  (c!"HK", c!"0ff7be54-7d7e-11de-9ae2-0019e336be3a"),
  (c!"MP", c!"0ffb63d8-7d7e-11de-9ae2-0019e336be3a"),
  (c!"FO", c!"0fff8e5e-7d7e-11de-9ae2-0019e336be3a"),
  (c!"AD", c!"10033c48-7d7e-11de-9ae2-0019e336be3a"),
  (c!"GI", c!"10061efe-7d7e-11de-9ae2-0019e336be3a"),
  (c!"IM", c!"1009d666-7d7e-11de-9ae2-0019e336be3a"),
  (c!"LU", c!"100cd4b0-7d7e-11de-9ae2-0019e336be3a"),
  (c!"MO", c!"10105c52-7d7e-11de-9ae2-0019e336be3a"),
  (c!"MC", c!"1013310c-7d7e-11de-9ae2-0019e336be3a"),
  (c!"PS", c!"1019325a-7d7e-11de-9ae2-0019e336be3a"),
  (c!"ME", c!"101cf458-7d7e-11de-9ae2-0019e336be3a"),
  (c!"YT", c!"10207fa6-7d7e-11de-9ae2-0019e336be3a"),
  (c!"AX", c!"1023d322-7d7e-11de-9ae2-0019e336be3a"),
  (c!"NF", c!"10271ce4-7d7e-11de-9ae2-0019e336be3a"),
  (c!"CC", c!"102a1b92-7d7e-11de-9ae2-0019e336be3a")]

/-- Part 5 of ilcd1_to_ecs2_geographies.json. -/
def geographies5 : List (Str × Str) := [
  (c!"AQ", c!"105b361e-7d7e-11de-9ae2-0019e336be3a"),
  (c!"IN-ML", c!"10988ebe-8be4-43c6-8451-3273ca12cd47"),
  (c!"BV", c!"10b7703c-7d7e-11de-9ae2-0019e336be3a"),
  (c!"TF", c!"10bb74b6-7d7e-11de-9ae2-0019e336be3a"),
  (c!"HM", c!"10c0fae4-7d7e-11de-9ae2-0019e336be3a"),
  (c!"IO", c!"10c45112-7d7e-11de-9ae2-0019e336be3a"),
  (c!"CX", c!"10c7c482-7d7e-11de-9ae2-0019e336be3a"),
  (c!"UM", c!"10cadb86-7d7e-11de-9ae2-0019e336be3a"),
  (c!"VU", c!"10cf3776-7d7e-11de-9ae2-0019e336be3a"),
  (c!"NG", c!"10d6bc3a-7d7e-11de-9ae2-0019e336be3a"),
  (c!"NL", c!"10df2fe6-7d7e-11de-9ae2-0019e336be3a"),
  (c!"NO", c!"10f1ec30-7d7e-11de-9ae2-0019e336be3a"),
  (c!"NP", c!"110f1ea4-7d7e-11de-9ae2-0019e336be3a"),
  (c!"NR", c!"11148498-7d7e-11de-9ae2-0019e336be3a"),
  (c!"SR", c!"1117f7f4-7d7e-11de-9ae2-0019e336be3a"),
  (c!"NI", c!"111cdba2-7d7e-11de-9ae2-0019e336be3a"),
  (c!"NZ", c!"11258d1a-7d7e-11de-9ae2-0019e336be3a"),
  (c!"PY", c!"11311298-7d7e-11de-9ae2-0019e336be3a"),
  (c!"PE", c!"11387d6c-7d7e-11de-9ae2-0019e336be3a"),
  (c!"PK", c!"11430eee-7d7e-11de-9ae2-0019e336be3a"),
  (c!"PL", c!"114ebb04-7d7e-11de-9ae2-0019e336be3a"),
  (c!"PA", c!"115546c2-7d7e-11de-9ae2-0019e336be3a"),
  (c!"PT", c!"115c647a-7d7e-11de-9ae2-0019e336be3a"),
  (c!"EEU", c!"11636ae9-23c9-4477-9e10-f4bc2767ebff"),
  (c!"PG", c!"11663ae0-7d7e-11de-9ae2-0019e336be3a"),
  (c!"GW", c!"11738740-7d7e-11de-9ae2-0019e336be3a"),
  (c!"QA", c!"117936fe-7d7e-11de-9ae2-0019e336be3a"),
  (c!"RE", c!"117d1850-7d7e-11de-9ae2-0019e336be3a"),
  (c!"RO", c!"11813638-7d7e-11de-9ae2-0019e336be3a"),
  (c!"MD", c!"1188faee-7d7e-11de-9ae2-0019e336be3a"),
  (c!"PH", c!"119679bc-7d7e-11de-9ae2-0019e336be3a"),
  (c!"PR", c!"11a7c1a4-7d7e-11de-9ae2-0019e336be3a"),
  (c!"RU", c!"12143bfe-7d7e-11de-9ae2-0019e336be3a"),
  (c!"CN-SC", c!"1238ec0d-4167-453a-9ec5-50cfef0782a1"),
  (c!"RW", c!"129718da-7d7e-11de-9ae2-0019e336be3a"),
  (c!"SA", c!"129c6a88-7d7e-11de-9ae2-0019e336be3a"),
  (c!"KN", c!"12a2ee3a-7d7e-11de-9ae2-0019e336be3a"),
  (c!"SC", c!"12a65db8-7d7e-11de-9ae2-0019e336be3a"),
  (c!"ZA", c!"12b21766-7d7e-11de-9ae2-0019e336be3a"),
  (c!"LS", c!"12ba54da-7d7e-11de-9ae2-0019e336be3a")]

/-- Part 6 of ilcd1_to_ecs2_geographies.json. -/
def geographies6 : List (Str × Str) := [
  (c!"BW", c!"12bee8d8-7d7e-11de-9ae2-0019e336be3a"),
  (c!"SN", c!"12c6a37a-7d7e-11de-9ae2-0019e336be3a"),
  (c!"SI", c!"12d0bd4c-7d7e-11de-9ae2-0019e336be3a"),
  (c!"SL", c!"12d57c60-7d7e-11de-9ae2-0019e336be3a"),
  (c!"SG", c!"12dcac1a-7d7e-11de-9ae2-0019e336be3a"),
  (c!"SO", c!"12e2e22e-7d7e-11de-9ae2-0019e336be3a"),
  (c!"BR-AM", c!"12e2f855-d67d-492c-b59d-12205eeb79ea"),
  (c!"ES", c!"12ea642c-7d7e-11de-9ae2-0019e336be3a"),
  (c!"LC", c!"12f2d954-7d7e-11de-9ae2-0019e336be3a"),
  (c!"SD", c!"12f773b0-7d7e-11de-9ae2-0019e336be3a"),
  (c!"SE", c!"1301c428-7d7e-11de-9ae2-0019e336be3a"),
  (c!"SY", c!"130d4f28-7d7e-11de-9ae2-0019e336be3a"),
  (c!"CH", c!"131278d6-7d7e-11de-9ae2-0019e336be3a"),
  (c!"TT", c!"1317a572-7d7e-11de-9ae2-0019e336be3a"),
  (c!"TH", c!"131dd2ee-7d7e-11de-9ae2-0019e336be3a"),
  (c!"CA-NU", c!"1325cfa3-2b0d-487e-8d46-3e66b4b00f85"),
  (c!"TJ", c!"13293cec-7d7e-11de-9ae2-0019e336be3a"),
  (c!"TK", c!"132fcda0-7d7e-11de-9ae2-0019e336be3a"),
  (c!"TO", c!"13335286-7d7e-11de-9ae2-0019e336be3a"),
  (c!"TG", c!"1337d22a-7d7e-11de-9ae2-0019e336be3a"),
  (c!"ST", c!"133bfb7a-7d7e-11de-9ae2-0019e336be3a"),
  (c!"TN", c!"133fc02a-7d7e-11de-9ae2-0019e336be3a"),
  (c!"TR", c!"1347b0a0-7d7e-11de-9ae2-0019e336be3a"),
  (c!"TV", c!"1351b0f0-7d7e-11de-9ae2-0019e336be3a"),
  (c!"TM", c!"1356be2e-7d7e-11de-9ae2-0019e336be3a"),
  (c!"TZ", c!"13615776-7d7e-11de-9ae2-0019e336be3a"),
  (c!"UG", c!"13685c7e-7d7e-11de-9ae2-0019e336be3a"),
  (c!"GB", c!"13725fee-7d7e-11de-9ae2-0019e336be3a"),
  (c!"UA", c!"1387ef8a-7d7e-11de-9ae2-0019e336be3a"),
  (c!"CN-LN", c!"13b215dc-598a-480e-98e6-13675076ac78"),
  (c!"US", c!"13d387f6-7d7e-11de-9ae2-0019e336be3a"),
  (c!"UN-MELANESIA", c!"13fd916a-e62c-11de-ba56-0019e336be3a"),
  (c!"BF", c!"1420c7f0-7d7e-11de-9ae2-0019e336be3a"),
  (c!"UY", c!"14266b60-7d7e-11de-9ae2-0019e336be3a"),
  (c!"UZ", c!"142f54c8-7d7e-11de-9ae2-0019e336be3a"),
  (c!"VC", c!"1436d536-7d7e-11de-9ae2-0019e336be3a"),
  (c!"VE", c!"143d4e2a-7d7e-11de-9ae2-0019e336be3a"),
  (c!"VG", c!"14480004-7d7e-11de-9ae2-0019e336be3a"),
  (c!"VN", c!"144e6f5c-7d7e-11de-9ae2-0019e336be3a"),
  (c!"VI", c!"14599396-7d7e-11de-9ae2-0019e336be3a")]

/-- Part 7 of ilcd1_to_ecs2_geographies.json. -/
def geographies7 : List (Str × Str) := [
  (c!"NA", c!"145e04ee-7d7e-11de-9ae2-0019e336be3a"),
  (c!"WF", c!"14644bba-7d7e-11de-9ae2-0019e336be3a"),
  (c!"WS", c!"14679ce8-7d7e-11de-9ae2-0019e336be3a"),
  (c!"SZ", c!"146af956-7d7e-11de-9ae2-0019e336be3a"),
  (c!"YE", c!"146f1702-7d7e-11de-9ae2-0019e336be3a"),
  (c!"ZM", c!"147563fa-7d7e-11de-9ae2-0019e336be3a"),
  (c!"ZW", c!"147cde5a-7d7e-11de-9ae2-0019e336be3a"),
  (c!"FSU", c!"14a80a4c-7e2a-11de-9820-0019e336be3a"),
  (c!"ID", c!"14ba15f4-7d7e-11de-9ae2-0019e336be3a"),
  (c!"IN-MH", c!"14bfff77-d5a0-4ad5-9936-58636c295e99"),
  (c!"GP", c!"14f2285e-7d7e-11de-9ae2-0019e336be3a"),
  (c!"AE", c!"14f9e5d0-7d7e-11de-9ae2-0019e336be3a"),
  (c!"TL", c!"14fec0f0-7d7e-11de-9ae2-0019e336be3a"),
  (c!"PN", c!"150266d8-7d7e-11de-9ae2-0019e336be3a"),
  (c!"PW", c!"1505b46e-7d7e-11de-9ae2-0019e336be3a"),
  (c!"MH", c!"15099fa2-7d7e-11de-9ae2-0019e336be3a"),
  (c!"PM", c!"150dbd3a-7d7e-11de-9ae2-0019e336be3a"),
  (c!"SH", c!"1510fb80-7d7e-11de-9ae2-0019e336be3a"),
  (c!"SM", c!"15146d88-7d7e-11de-9ae2-0019e336be3a"),
  (c!"TC", c!"15177c76-7d7e-11de-9ae2-0019e336be3a"),
  (c!"EH", c!"151bdf00-7d7e-11de-9ae2-0019e336be3a"),
  (c!"RS", c!"1520c2a4-7d7e-11de-9ae2-0019e336be3a"),
  (c!"VA", c!"15265aa2-7d7e-11de-9ae2-0019e336be3a"),
  (c!"SJ", c!"152d7e40-7d7e-11de-9ae2-0019e336be3a"),
  (c!"MF", c!"153b614a-7d7e-11de-9ae2-0019e336be3a"),
  (c!"BL", c!"153e85be-7d7e-11de-9ae2-0019e336be3a"),
  (c!"GG", c!"1541988a-7d7e-11de-9ae2-0019e336be3a"),
  (c!"JE", c!"1544d680-7d7e-11de-9ae2-0019e336be3a"),
  (c!"GS", c!"154830be-7d7e-11de-9ae2-0019e336be3a"),
  (c!"TW", c!"154d2934-7d7e-11de-9ae2-0019e336be3a"),
  (c!"BR-SE", c!"17a40e27-7f28-48c3-892d-6121e748ed01"),
  (c!"RAS", c!"19c7cdd2-e590-11de-9dfe-0019e336be3a"),
  (c!"BR-GO", c!"1a3d1ef6-b2f8-44b8-b51a-c82dec5f769b"),
  (c!"UN-SAMERICA", c!"1ae80e7c-e5e3-11de-a739-0019e336be3a"),
  (c!"IN-CH", c!"1b5afe13-e071-4c8a-81b5-68eb8982053f"),
  (c!"Russia (Europe)", c!"1cfaa6a1-259a-442f-80ca-1070cfbbf6da"),
  (c!"CA-ON", c!"1d87302d-fd96-4acb-9f9f-d3389ba929b7"),
  (c!"IN-Eastern grid", c!"1eb1f8b3-8c35-425e-94ca-cf502eb004c3"),
  (c!"IN-JH", c!"2221b78c-5a1c-454c-a637-744d54a0bbe9"),
  (c!"BR-RS", c!"2248c6cf-f68d-4dac-85bb-fac7e80064f6")]

/-- Part 8 of ilcd1_to_ecs2_geographies.json. -/
def geographies8 : List (Str × Str) := [
  (c!"Coral Sea Islands", c!"2267ada9-09f7-4fc9-a93f-5b1e0086107e"),
  (c!"CN-SA", c!"232efb31-1dd5-4d00-87a8-5fa631021c17"),
  (c!"BR-MS", c!"23baa40a-53e2-4d6c-a61e-a412c2b7aaae"),
  (c!"Central Asia", c!"23ccc3fe-88d5-11de-99d3-0019e336be3a"),
  (c!"CN-TJ", c!"24c6336b-e160-4d2a-8d25-ac207a66f6c1"),
  (c!"BR-AC", c!"251a2d08-d031-4589-9318-029ba543abde"),
  (c!"IN-Western grid", c!"25457a88-a525-4fd8-b73d-72fd3f37fc74"),
  (c!"UN-MICRONESIA", c!"26bf514e-e62c-11de-ba56-0019e336be3a"),
  (c!"UCTE without France", c!"26c31b7c-e0d1-11de-823b-0019e336be3a"),
  (c!"IN-North-eastern grid", c!"26e353a9-dac6-4123-833d-75cd720d9e19"),
  (c!"IN-AR", c!"28388907-7605-469a-b28d-cdc8f963b28b"),
  (c!"France, including overseas territories", c!"28d52c97-56c5-4bcd-9504-ccc5b4797c67"),
  (c!"CA-YK", c!"29dca13b-9d4b-4714-9c80-1808b9127dda"),
  (c!"CN-HU", c!"2a19941e-dd11-44b4-919f-fb33c9150b71"),
  (c!"BR-RR", c!"2a7e9ed2-4de5-4b28-9b4e-b12c50a1ed53"),
  (c!"CN-SD", c!"2b2ddda2-bb8e-42f7-82e5-013cc04f7bc5"),
  (c!"UN-EASIA", c!"2b57aeea-88d5-11de-99d3-0019e336be3a"),
  (c!"UN-AMERICAS", c!"2ea604e6-e5e8-11de-8102-0019e336be3a"),
  (c!"RAF", c!"2f693dc6-7e28-11de-9820-0019e336be3a"),
  (c!"CN-AH", c!"2f82cf2a-d2e0-4be3-b60c-399bfe93d403"),
  (c!"SAS", c!"30e68c9c-7e2a-11de-9820-0019e336be3a"),
  (c!"GLO", c!"34dbbff8-88ce-11de-ad60-0019e336be3a"),
  (c!"AUS-QNS", c!"3624a72f-ca5a-48d6-be41-27e705be5b61"),
  (c!"MRO", c!"39185d7c-a546-424b-8605-6bc8e94e109f"),
  (c!"Canada without Alberta", c!"39c8f992-22b7-4d59-9be0-eb461b36df2f"),
  (c!"WECC", c!"3af78f04-f008-43fd-8e29-dccfba3075c7"),
  (c!"BR-PR", c!"3b2c2140-c25c-47c5-876d-78e5dc82f066"),
  (c!"Siachen Glacier", c!"3dc3c9af-74a3-472e-8af9-070146a3eec9"),
  (c!"BR-North-eastern grid", c!"3ece4ff8-55ae-40b2-baea-0d2bf2034fbf"),
  (c!"IN-HR", c!"3f1442fa-0808-438c-a355-2a1e96f9adeb"),
  (c!"IN-RJ", c!"4024933b-d7a2-4ebb-87dc-80460ff13c50"),
  (c!"RFC", c!"42e6cfaf-ffa3-4f42-85bb-55e1b1c40c56"),
  (c!"Bajo Nuevo", c!"43c4f591-2b61-4145-a9f6-e10b4349c2cd"),
  (c!"IAI Area, North America", c!"446707ca-ceb0-4e24-b794-73e95e6154c0"),
  (c!"IAI Area, Africa", c!"4484cb2d-50e8-43a0-a79f-80313021306a"),
  (c!"BR-SC", c!"4645f771-3596-4c42-ba0f-822d1ce2fb72"),
  (c!"IN-Islands", c!"4a07e727-a1e5-4079-8433-b1d2b5ed544c"),
  (c!"CN-SH", c!"4a15b2ab-5593-48d7-a7b9-b1c07c5ca99b"),
  (c!"Ashmore and Cartier Islands", c!"4a271c88-5c3c-42de-9bee-1e950cc9d9f5"),
  (c!"CN-GZ", c!"4a743c1d-f819-4398-b389-784b84de386e")]

/-- Part 9 of ilcd1_to_ecs2_geographies.json. -/
def geographies9 : List (Str × Str) := [
  (c!"IAI Area, North America, without Quebec", c!"4a81aea7-bf37-4c83-ac1e-9a2050f88920"),
  (c!"Cyprus No Mans Area", c!"4aa2a59b-aed0-4438-9db4-960357820659"),
  (c!"UN-SEASIA", c!"4aff9c9e-88d5-11de-99d3-0019e336be3a"),
  (c!"BR-AL", c!"4c05bd06-d401-45cd-b594-c1eafa0ef95b"),
  (c!"SX", c!"4c344fd5-a67d-412e-adb4-f3191817011f"),
  (c!"SGCC", c!"4c9baec2-f9fc-4f36-84f7-a3ed2eab82a1"),
  (c!"UN-POLYNESIA", c!"4d22983c-e62c-11de-ba56-0019e336be3a"),
  (c!"CS", c!"4eb91d59-44f6-4ec6-9f21-0c48bcf3becf"),
  (c!"UN-WASIA", c!"4ed30b08-88d5-11de-99d3-0019e336be3a"),
  (c!"UN-EEUROPE", c!"50ec320c-88d5-11de-99d3-0019e336be3a"),
  (c!"NPCC, US only", c!"50f826e7-ab13-444e-987b-180701b691c9"),
  (c!"IN-KL", c!"518f1827-fe70-400e-b521-48f2f72fd777"),
  (c!"CA-BC", c!"533c318c-a189-4fc6-84a8-e9d48eab987c"),
  (c!"UN-NEUROPE", c!"548bd19c-88d5-11de-99d3-0019e336be3a"),
  (c!"BR-TO", c!"54e71d4b-1d1f-473d-91db-15d40c496a6d"),
  (c!"IN-GA", c!"567cc8ea-05d0-4d27-a509-89f10e1a280e"),
  (c!"BR-Northern grid", c!"572aa631-8a25-4c16-b437-2ee0672c450d"),
  (c!"UN-SEUROPE", c!"57c8c52c-88d5-11de-99d3-0019e336be3a"),
  (c!"IN-Northern grid", c!"59003ab7-b40a-43ac-b7c9-3e3e8907803e"),
  (c!"HICC", c!"598f9aa4-e409-11de-bce5-0019e336be3a"),
  (c!"CSG", c!"5b64ff1c-3c47-4adf-b89c-9e18078b9bf7"),
  (c!"IN-BR", c!"5ba6d534-2083-4167-975d-84579c9e5202"),
  (c!"RER w/o DE+NL+RU", c!"5c322a16-89ab-48d4-b1a2-fec5759774a3"),
  (c!"RER w/o CH+DE", c!"5d5718f2-ee74-462a-888c-be4d534ef542"),
  (c!"BR-ES", c!"5d8ac1db-f842-4688-aba1-673c4f07b1dd"),
  (c!"CA-NT", c!"5fb3ee97-3981-4918-b09a-4de1b1fdb517"),
  (c!"MRO, US only", c!"6432879f-dc31-4e80-bc55-573f72dafee8"),
  (c!"BR-MT", c!"64441fa1-0151-47ac-b97a-1fd886b90cae"),
  (c!"IN-DD", c!"653869da-6e3f-476e-9380-19d23040f2b9"),
  (c!"IN-UT", c!"6859dfd7-168b-4a36-9429-e0e884bff83a"),
  (c!"Canary Islands", c!"6a0f08e3-19ed-4748-a62f-f0920f99d65a"),
  (c!"Europe without Switzerland and France", c!"6a1e0054-4990-4d43-b7e4-e3d9a595a275"),
  (c!"Spratly Islands", c!"6ba95ea2-6963-4dad-aa26-a5b45785e7f0"),
  (c!"CA-AB", c!"6bf93cce-7c23-463e-9962-898efa030fa2"),
  (c!"Russia (Asia)", c!"6d696e3b-ac91-486c-8f04-349c496915ae"),
  (c!"Somaliland", c!"6d7964cb-db0a-4b40-b975-b5d4d6bdb331"),
  (c!"BR-Mid-western grid", c!"6e1c02cc-e7fc-4e63-a30e-59cfa5c4d9c1"),
  (c!"BR-MA", c!"6eaa35ce-47d2-4c3d-9079-12adc7ffb375"),
  (c!"BR-PI", c!"70c9eee0-7dc4-4e2f-8dcc-f6bc4358ead9"),
  (c!"BR-PB", c!"717c6f47-2eda-4d1b-8277-83f634ea7c23")]

/-- Part 10 of ilcd1_to_ecs2_geographies.json. -/
def geographies10 : List (Str × Str) := [
  (c!"AUS-VCT", c!"7441e29d-0a88-49fa-8ce4-eeb7f1949f2f"),
  (c!"BR-AP", c!"744e0bff-1149-4c95-bea7-74792bc71a21"),
  (c!"IN-HP", c!"763ca99d-f561-45ef-8d36-84cb877f9c08"),
  (c!"IN-AN", c!"7661383e-998b-4738-b8dc-9e1e60070c8a"),
  (c!"IN-WB", c!"77849b53-31ea-4b25-93e5-451909753ad3"),
  (c!"IAI Area, Asia, without China and GCC", c!"77b2f7ee-3f79-4946-a2d7-50c46d1756d2"),
  (c!"RoW", c!"7846b897-7c04-4f9f-b607-2b83fcd9a74c"),
  (c!"SPP", c!"79565b15-098f-471f-aa28-d7dd611657db"),
  (c!"CN-SX", c!"79abbd47-8e8b-4932-94c8-f3518ff110e9"),
  (c!"Akrotiri", c!"7abf336a-09c3-487b-bdc3-989bbe50ee05"),
  (c!"CN-FJ", c!"7ac3c1e7-0b7d-4ff9-9aa5-0d67d7da37fa"),
  (c!"IN-PB", c!"83cdc953-e485-453b-a8f9-749f92aca417"),
  (c!"TRE", c!"854cdfab-82bf-4c25-8515-ba33589d3efe"),
  (c!"BR-RJ", c!"862723a2-2563-490a-9b7a-7206cb46fcb1"),
  (c!"CA-QC", c!"868a66d1-7428-4ba2-9125-253b07afc119"),
  (c!"UN-CARIBBEAN", c!"87b165cf-8b3c-4289-807e-4512b4fb2b2f"),
  (c!"IN-AP", c!"888f6bc1-22f6-486b-b2f3-814672df6930"),
  (c!"IN-CT", c!"89f88c37-befd-49fa-92ad-35875a6709eb"),
  (c!"IN-Southern grid", c!"8a80d1d2-de76-44e0-a3d3-46b98c053ca1"),
  (c!"CN-CQ", c!"8bc809e8-f246-46f7-bf1f-93e34e06befd"),
  (c!"RER w/o DE+NL+NO+RU", c!"8bd484ff-ec4e-45c6-9f61-e211a872a4ff"),
  (c!"BR-RN", c!"8cd18b82-fdd2-4cf9-87c8-33e125b675f4"),
  (c!"CA-NS", c!"8cd8dbae-aa08-44b0-be67-6ed7e876cedd"),
  (c!"UN-OCEANIA", c!"9232290c-e62b-11de-ba56-0019e336be3a"),
  (c!"CA-NF", c!"92618f91-5370-41d9-b5d4-6a9d60b3239f"),
  (c!"BR-BA", c!"929f1a52-bb4d-4a86-8439-6b01d8813196"),
  (c!"Northern Cyprus", c!"92f428e3-0631-408a-bb78-7cc010f272ca"),
  (c!"Indian Ocean Territories", c!"946938ce-9c81-4a3c-a6ce-ce60a931c602"),
  (c!"AUS-ACT", c!"96e0124a-b1b0-4303-b26c-44ee5857f3a1"),
  (c!"CN-HN", c!"9923dac7-3164-4e2f-8723-f343d998072d"),
  (c!"BR-PA", c!"9a205fd8-72f3-423f-b3a7-6b805aaee30b"),
  (c!"CN-NX", c!"9e2f10b3-138f-4320-95a3-ea3853c5fbdd"),
  (c!"Europe without NORDEL (NCPA)", c!"a2d4e588-e0d1-11de-823b-0019e336be3a"),
  (c!"Canada without Quebec", c!"a4d7d7fd-94ae-4f44-91ba-53cd7f79bac4"),
  (c!"BR-PE", c!"a64ba70d-b110-4f81-b415-299c0c193faa"),
  (c!"SERC", c!"a7b38401-afb6-4130-86f6-cd5184c6c40e"),
  (c!"BR-SP", c!"a7ba1868-375a-4d62-9048-bdf2136447c4"),
  (c!"CN-BJ", c!"a7cf4239-43f5-4256-ae84-e94595cbaac6"),
  (c!"CN-ZJ", c!"a959ec4b-3db6-4b9f-9ea6-897fbcfdc610"),
  (c!"ASCC", c!"a9c3be27-affe-464c-8ebf-996d8ab6a958")]

/-- Part 11 of ilcd1_to_ecs2_geographies.json. -/
def geographies11 : List (Str × Str) := [
  (c!"Scarborough Reef", c!"aa97629e-e94b-4270-a042-979d38785ecd"),
  (c!"North America without Quebec", c!"aab06382-a476-4bec-a78b-d2fc0b849980"),
  (c!"CA-MB", c!"aae610ca-cdef-4c81-9631-ded55d455444"),
  (c!"IN-UP", c!"ae2be714-8cbe-4abd-afac-a5e7ca2b0d55"),
  (c!"RER w/o DE+NL+NO", c!"ae85cec6-cc61-4a0d-a322-5fb10b6b4ece"),
  (c!"Canada without Alberta and Quebec", c!"ae9d0b20-e4e3-4cd3-9699-63eca5319c9b"),
  (c!"IN-MP", c!"b3d19998-fe81-4783-a19e-408d7424d876"),
  (c!"CA-PE", c!"b5b34218-bee7-4196-b70c-1b5ad433801a"),
  (c!"Asia without China", c!"b7ac8bd0-a9d4-4caf-a832-48a0f3660da7"),
  (c!"IAI Area, EU27 & EFTA", c!"b7fcfda9-0add-49aa-87d4-d60f3bda4283"),
  (c!"CA-NB", c!"b8ce14f4-e09b-4117-b4dd-d74af99da744"),
  (c!"IN-OR", c!"bf61f94b-cbd6-4a41-9c8b-0ef2b4e06c3c"),
  (c!"CN-HE", c!"bf7827a3-16a7-4a38-ad02-527898a12a7f"),
  (c!"CN-XZ", c!"c079ba9b-dc27-45f0-96b5-a3dd168de8ed"),
  (c!"CW", c!"c08de0ce-64e7-4efb-a37f-8df754c262c8"),
  (c!"Québec, HQ distribution network", c!"c231d8f9-39e9-408c-9884-8508b8f9baf7"),
  (c!"IN-KA", c!"c23d9dc6-d794-4775-8e92-ee830a084a7f"),
  (c!"AUS-SAS", c!"c2bb7d7f-6242-4b3c-98cd-62b03f7a8be3"),
  (c!"RER w/o AT+BE+CH+DE+FR+IT", c!"c428af56-39c0-4dca-a617-8716b52a6640"),
  (c!"BR-DF", c!"c65371a5-fd9a-4ca9-ae24-c4fde6615445"),
  (c!"Europe, without Russia and Turkey", c!"c670b4a0-6051-4935-bafe-866736a010a9"),
  (c!"Serranilla Bank", c!"c692fbb4-53d5-4e63-920d-361e98c90dab"),
  (c!"CN-GX", c!"c6b0afc2-8321-49aa-81f3-a793417eed91"),
  (c!"XK", c!"ca32e3be-5acc-4486-88cf-731cdff3b9c5"),
  (c!"IN-MZ", c!"cab4fbd7-e8ae-4ea6-9e74-0e41df667c61"),
  (c!"UCTE", c!"ce1503be-7060-4959-8387-bc3ea3f4c885"),
  (c!"BQ", c!"cef71bbd-ab04-4959-ac3b-89a0c55e2e8c"),
  (c!"SS", c!"cff5fe64-d6cf-4256-8bd0-428dc0f104f6"),
  (c!"IN-AS", c!"d0145549-5ad2-4cc6-8e5b-c6ed6223d2db"),
  (c!"NPCC", c!"d48cee40-0ff1-49d6-a80d-9e0be3e0c2f6"),
  (c!"BALTSO", c!"d4c8443a-d821-11de-b50d-0019e336be3a"),
  (c!"UN-ASIA", c!"d509536a-7e28-11de-9820-0019e336be3a"),
  (c!"CN-GS", c!"d5231e2f-479b-4f21-9173-35beeaf2406a"),
  (c!"IN-MN", c!"d6bf166c-b5aa-45a6-b0e9-7c169d2c7cbc"),
  (c!"IN-DN", c!"d766dc54-3e8f-4ac4-8a0f-69707a338b33"),
  (c!"IN-JK", c!"d8cc1385-8b61-4509-8db0-d9cb5fa95725"),
  (c!"BR-RO", c!"d9497730-f613-4d31-aab2-1d82add2d1bc"),
  (c!"CN-NM", c!"da5d7825-8e05-4bad-b026-4204389cdef3"),
  (c!"AUS-NTR", c!"dbee0af4-00e0-4280-a377-414d0a39998e"),
  (c!"CN-JS", c!"dc5987d0-7a19-4843-82f1-15708e106edb")]

/-- Part 12 of ilcd1_to_ecs2_geographies.json. -/
def geographies12 : List (Str × Str) := [
  (c!"BR-CE", c!"dc8836a3-1d91-49ed-b4b7-0482f7ec3eaf"),
  (c!"IAI Area, West Europe", c!"dc8d48a0-e8ab-494f-a2a2-270ef43cef95"),
  (c!"CN-HA", c!"dd10b4f5-3c51-4c62-9b32-a111e15e3e52"),
  (c!"BR-Southern grid", c!"dd2330a8-30dc-4af9-bb3a-d2d2bf404dde"),
  (c!"UCTE without Germany", c!"dde7310e-e0d0-11de-823b-0019e336be3a"),
  (c!"IN-DL", c!"de26c625-ae68-4c9e-8fde-a6c33b3dfe14"),
  (c!"WEU", c!"de74489a-e3bf-4b3a-8463-b7b9eba8a8fb"),
  (c!"IN-LD", c!"dee052a0-3714-41b6-86c0-79d062704c25"),
  (c!"IN-NL", c!"df16b2b2-c49e-4560-9b74-cbcbe0a8d281"),
  (c!"BR-South-eastern grid", c!"df7d08ae-6f20-4095-96e6-3d9cc6f49263"),
  (c!"FRCC", c!"dfd92cab-e7c7-4ca8-8abc-2fb6fd064dbc"),
  (c!"CA-SK", c!"e3aa6506-9887-4e27-9102-b3671e430090"),
  (c!"UN-EAFRICA", c!"e3daf92a-88d2-11de-99d3-0019e336be3a"),
  (c!"CN-JL", c!"e58a4a8a-ca18-48d8-9023-3628de160e8e"),
  (c!"UN-MAFRICA", c!"e60b420e-88d2-11de-99d3-0019e336be3a"),
  (c!"UN-NAFRICA", c!"e675a82e-88d2-11de-99d3-0019e336be3a"),
  (c!"RER w/o RU", c!"e6a1bb9b-c1f3-49ed-a64b-87d488244ef9"),
  (c!"UN-SASIA", c!"e6d3af00-88d2-11de-99d3-0019e336be3a"),
  (c!"UN-WAFRICA", c!"e89dc6f4-88d2-11de-99d3-0019e336be3a"),
  (c!"CN-XJ", c!"e8a978ab-a183-4ce7-b791-760190d8a63c"),
  (c!"Clipperton Island", c!"e9f525be-34b8-45b6-9c33-5daf8b97fe7c"),
  (c!"IN-TN", c!"eb2442cf-93eb-4784-99f9-7a0c97c3576f"),
  (c!"AUS-NSW", c!"ee4baa34-3c79-4919-9393-c5d8a9015674"),
  (c!"UN-EUROPE", c!"f2d812a2-e631-11de-ba56-0019e336be3a"),
  (c!"WECC, US only", c!"f37ced82-5df8-48c2-a207-1e36dd11a112"),
  (c!"IAI Area, South America", c!"f3b8b2cb-5fd9-4cfc-b947-783a102c739e"),
  (c!"CN-YN", c!"f41e84aa-2c80-451e-a7ab-594acc1b096d"),
  (c!"Guantanamo Bay", c!"f557e57c-b331-4ed4-b103-cb9a167c71b0"),
  (c!"CN-JX", c!"f5c62675-f6ae-4bc4-8c9b-3b737ef2ea53"),
  (c!"IN-PY", c!"f7228566-0785-45da-b946-01f82d277dda"),
  (c!"ENTSO-E", c!"f87aa98c-d820-11de-a736-0019e336be3a"),
  (c!"Europe without Switzerland", c!"f9221622-cc45-11de-98ed-0019e336be3a"),
  (c!"UN-AUSTRALIANZ", c!"fb4bde60-e62b-11de-ba56-0019e336be3a"),
  (c!"CN-GD", c!"fbfd6cb0-56b1-4d0b-a13f-7f9f213f9afa"),
  (c!"UN-CAMERICA", c!"fc467bec-d8f0-11de-b1d3-0019e336be3a"),
  (c!"RME", c!"fd6f25d2-7e2d-11de-9820-0019e336be3a"),
  (c!"CENTREL", c!"fd95ae8c-7e2d-11de-9820-0019e336be3a"),
  (c!"AUS-TSM", c!"fdb06d13-ea53-4a9a-878b-7489f2bae2f7"),
  (c!"NORDEL", c!"fe0113e8-7e2d-11de-9820-0019e336be3a")]

/-- `_default_geographies_mapping`, ILCD1_to_ECS2_conversion.py:1245-1246. -/
def geographies : List (Str × Str) :=
  [geographies1, geographies2, geographies3, geographies4, geographies5, geographies6, geographies7, geographies8, geographies9, geographies10, geographies11, geographies12].flatten

end Verif.Naming
