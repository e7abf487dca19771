/-
The flow property and unit group files that come with the package, one row a file, as they are copied
into the output of a conversion to ILCD: `src/Lavoisier/Lavoisier_Default_Files/ILCD_EF30_FlowProperties`
and `.../ILCD_EF30_UnitGroups`.

Generated from the files.  Of a flow property file the rows keep the name of the file (its UUID), the
version (`dataSetVersion`), the reference unit group (`referenceToReferenceUnitGroup`) and the name; of a
unit group file the UUID, the internal number of the reference unit (`referenceToReferenceUnit`) and for
every unit the internal number, the name and the mean value as written.  Comments, classifications and the
administrative sections are left out.
-/
import Verif.Py

namespace Verif.RefUnits

open Verif

/-- A flow property file: its version, the unit group it refers to and its name. -/
structure FpFile where
  version : Str
  group : Str
  name : Str
  deriving DecidableEq, Repr

/-- A unit of a unit group file: internal number, name and mean value. -/
structure UnitRow where
  number : Str
  name : Str
  mean : Str
  deriving DecidableEq, Repr

/-- A unit group file: the internal number of the reference unit and the units. -/
structure UgFile where
  reference : Str
  units : List UnitRow
  deriving DecidableEq, Repr

/-- `Lavoisier_Default_Files/ILCD_EF30_FlowProperties/*.xml`, files 1 to 20 in the order of their names. -/
def fpFiles1 : List (Str × FpFile) := [
  (c!"01846770-4cfe-4a25-8ad9-919d8d378345", ⟨c!"03.00.004", c!"5beb6eed-33a9-47b8-9ede-1dfe8f679159", c!"Number of items"⟩),
  (c!"02f11c31-4bb8-41de-81fb-fb479f361eb9", ⟨c!"03.00.003", c!"93a60a57-a4c8-11da-a746-0800200c9a66", c!"Iodine content"⟩),
  (c!"037f9009-8b06-470d-a190-21448f7921c7", ⟨c!"03.00.003", c!"93a60a57-a4c8-11da-a746-0800200c9a66", c!"Lead content"⟩),
  (c!"078ecf46-26d6-47e3-8128-fcced884d1cd", ⟨c!"03.00.003", c!"93a60a57-a4c8-11da-a746-0800200c9a66", c!"Germanium content"⟩),
  (c!"085af809-5dc6-4920-aaa1-4ac493ae4af8", ⟨c!"03.00.003", c!"93a60a57-a4c8-11da-a746-0800200c9a66", c!"Nitrogen content (mass)"⟩),
  (c!"0ab79a5f-7fd7-4d5d-be55-559292c958d3", ⟨c!"03.00.003", c!"93a60a57-a4c8-11da-a746-0800200c9a66", c!"Copper content"⟩),
  (c!"0ac18236-1ef4-4d67-95c0-4aebfec7f470", ⟨c!"03.00.003", c!"93a60a57-a4c8-11da-a746-0800200c9a66", c!"Cerium content"⟩),
  (c!"0b12d18f-0c7c-44da-8c52-dc3278f917c7", ⟨c!"03.00.003", c!"93a60a57-a4c8-11da-a746-0800200c9a66", c!"Ytterbium content"⟩),
  (c!"0bb4f3ac-2944-4263-8587-ea6eac2d24ac", ⟨c!"03.00.003", c!"93a60a57-a4c8-11da-a746-0800200c9a66", c!"Rhenium content"⟩),
  (c!"11f31f00-f6fa-4ef0-a9e3-5bd37199dd20", ⟨c!"03.00.003", c!"93a60a57-a4c8-11da-a746-0800200c9a66", c!"Tin content"⟩),
  (c!"184c9c12-32fb-4252-a484-9952928b8473", ⟨c!"03.00.003", c!"93a60a57-a4c8-11da-a746-0800200c9a66", c!"Indium content"⟩),
  (c!"1cc347a0-3bd1-46db-a308-2707c68d2351", ⟨c!"03.00.000", c!"5454b231-270e-45e6-89b2-7f4f3e482245", c!"Vehicle transport"⟩),
  (c!"1d85ab50-ed1e-4421-b3b8-c5197d858a0d", ⟨c!"03.00.003", c!"93a60a57-a4c8-11da-a746-0800200c9a66", c!"Argon content (mass)"⟩),
  (c!"1e6e8252-dae9-4b4a-866c-c6c3a5e810a1", ⟨c!"03.00.003", c!"93a60a57-a4c8-11da-a746-0800200c9a66", c!"Thulium content"⟩),
  (c!"24a07e87-aa12-4f9c-8c40-580e9bf7a2f2", ⟨c!"03.00.003", c!"93a60a57-a4c8-11da-a746-0800200c9a66", c!"Zirconium content"⟩),
  (c!"25c2946d-2b1f-4245-b2aa-80c037912665", ⟨c!"03.00.003", c!"93a60a57-a4c8-11da-a746-0800200c9a66", c!"Thorium content"⟩),
  (c!"2651cd57-1c24-4b8e-856b-ddb63a3b267e", ⟨c!"03.00.003", c!"93a60a57-a4c8-11da-a746-0800200c9a66", c!"Mercury content"⟩),
  (c!"282882cf-a5e5-4170-82dd-8e84da2724d2", ⟨c!"03.00.003", c!"93a60a57-a4c8-11da-a746-0800200c9a66", c!"Titanium content"⟩),
  (c!"2e4695ff-d6a5-42c2-9816-6dbd6c859707", ⟨c!"03.00.003", c!"93a60a57-a4c8-11da-a746-0800200c9a66", c!"Radium content"⟩),
  (c!"2ea4d465-87e3-4f85-81a0-2bd661639f4e", ⟨c!"03.00.003", c!"93a60a57-a4c8-11da-a746-0800200c9a66", c!"Yttrium content"⟩)]

/-- `Lavoisier_Default_Files/ILCD_EF30_FlowProperties/*.xml`, files 21 to 40 in the order of their names. -/
def fpFiles2 : List (Str × FpFile) := [
  (c!"33cf4d9a-bcbf-4fe4-926b-38f2c3e36278", ⟨c!"03.00.003", c!"93a60a57-a4c8-11da-a746-0800200c9a66", c!"Tantalum content"⟩),
  (c!"341fd786-b2ad-4552-a762-5eafcab45dee", ⟨c!"01.00.003", c!"f170abd3-f010-45f4-8e7c-9871a5c0421b", c!"Moles"⟩),
  (c!"3da87ad0-733e-4ca9-b234-75ef52ca2a2d", ⟨c!"03.00.003", c!"93a60a57-a4c8-11da-a746-0800200c9a66", c!"Holmium content"⟩),
  (c!"435e1d0e-e36e-4d4a-9cd1-7fd2c135da61", ⟨c!"03.00.003", c!"93a60a57-a4c8-11da-a746-0800200c9a66", c!"Antimony content"⟩),
  (c!"441238a3-ba09-46ec-b35b-c30cfba746d1", ⟨c!"02.00.003", c!"93a60a57-a3c8-23da-a746-0800200c9a66", c!"Volume*time"⟩),
  (c!"476dbccb-c1e5-4cdb-aa14-f4ef627c45ec", ⟨c!"03.00.003", c!"93a60a57-a4c8-11da-a746-0800200c9a66", c!"Fluorine content (mass)"⟩),
  (c!"52dcf2ff-c0f6-417f-a957-788688d67b86", ⟨c!"03.00.003", c!"93a60a57-a4c8-11da-a746-0800200c9a66", c!"Recycled content (mass)"⟩),
  (c!"585d3441-af58-49c9-a5c2-1d1e5b63f8d5", ⟨c!"03.00.003", c!"5beb6eed-33a9-47b8-9ede-1dfe8f679159", c!"Comparative Toxic Unit for ecosystems (CTUe)"⟩),
  (c!"5a2556bf-a9ec-4720-9253-d40f1de3c2b8", ⟨c!"03.00.003", c!"93a60a57-a4c8-11da-a746-0800200c9a66", c!"Manganese content"⟩),
  (c!"5c39e9a9-4bb5-42cd-b519-0db3a940a575", ⟨c!"03.00.003", c!"93a60a57-a4c8-11da-a746-0800200c9a66", c!"Ruthenium content"⟩),
  (c!"5db5be2d-8df6-432b-ab3d-ffde49d3fe7f", ⟨c!"03.00.003", c!"93a60a57-a4c8-11da-a746-0800200c9a66", c!"Barium content"⟩),
  (c!"607a33e0-28ed-42f8-ac8c-66f0c9700e56", ⟨c!"03.00.003", c!"93a60a57-a4c8-11da-a746-0800200c9a66", c!"Silicon content"⟩),
  (c!"61ec59a5-3816-4e5a-88c7-acf8a8b33d41", ⟨c!"03.00.003", c!"93a60a57-a4c8-11da-a746-0800200c9a66", c!"Silver content"⟩),
  (c!"62e503ce-544a-4599-b2ad-bcea15a7bf20", ⟨c!"03.00.003", c!"93a60a57-a4c8-11da-a746-0800200c9a66", c!"Carbon content (biogenic)"⟩),
  (c!"64b8e725-b0ba-4837-abb9-62dc0e7b9f6f", ⟨c!"03.00.003", c!"93a60a57-a4c8-11da-a746-0800200c9a66", c!"Carbon content (fossil)"⟩),
  (c!"67b63204-ef91-44b2-a927-2f4ead1fae17", ⟨c!"03.00.000", c!"da299c4d-1741-4da8-9fbd-5ccfb5e1d688", c!"Marginal increase of costs"⟩),
  (c!"6827435e-8ad9-44c1-b0b4-b26f321957b1", ⟨c!"03.00.003", c!"93a60a57-a4c8-11da-a746-0800200c9a66", c!"Potassium content"⟩),
  (c!"697fbcb6-b516-4c2f-a78e-5ec2ffaec4b3", ⟨c!"03.00.003", c!"93a60a57-a4c8-11da-a746-0800200c9a66", c!"Caesium content"⟩),
  (c!"699b6a73-e8d5-4755-8d1d-b70de4b9efdd", ⟨c!"03.00.003", c!"93a60a57-a4c8-11da-a746-0800200c9a66", c!"Phosphorus content"⟩),
  (c!"71fc82ec-9eb9-424a-bc45-053a844c8af9", ⟨c!"03.00.003", c!"93a60a57-a4c8-11da-a746-0800200c9a66", c!"Selenium content"⟩)]

/-- `Lavoisier_Default_Files/ILCD_EF30_FlowProperties/*.xml`, files 41 to 60 in the order of their names. -/
def fpFiles3 : List (Str × FpFile) := [
  (c!"74f8559d-44a4-409f-9316-a185882a496c", ⟨c!"03.00.003", c!"93a60a57-a4c8-11da-a746-0800200c9a66", c!"Radon content"⟩),
  (c!"76d611d0-a0a5-43d5-b391-a4e7ec463052", ⟨c!"03.00.003", c!"93a60a57-a4c8-11da-a746-0800200c9a66", c!"Calcium content"⟩),
  (c!"77f40806-2c54-4050-97d3-d1b61eb4b0c9", ⟨c!"03.00.003", c!"93a60a57-a4c8-11da-a746-0800200c9a66", c!"Boron content"⟩),
  (c!"78b712c9-7f07-467f-b085-efee6067871b", ⟨c!"03.00.003", c!"93a60a57-a4c8-11da-a746-0800200c9a66", c!"Osmium content"⟩),
  (c!"7c367337-54f2-4fe9-8ee3-3f42681b0792", ⟨c!"03.00.003", c!"93a60a57-a4c8-11da-a746-0800200c9a66", c!"Zinc content"⟩),
  (c!"7cc6f031-f747-49e0-9600-ce2a2fe5657e", ⟨c!"03.00.003", c!"93a60a57-a4c8-11da-a746-0800200c9a66", c!"Vanadium content"⟩),
  (c!"7eb51190-01f0-40a0-801d-b5c588272314", ⟨c!"03.00.003", c!"93a60a57-a4c8-11da-a746-0800200c9a66", c!"Krypton content (mass)"⟩),
  (c!"7eb6e3cb-0c12-4216-99b5-2032906d42ca", ⟨c!"03.00.003", c!"93a60a57-a4c8-11da-a746-0800200c9a66", c!"Lanthanum content"⟩),
  (c!"7ec8d70e-4ffc-4024-86b7-6141cc0a2bf5", ⟨c!"03.00.003", c!"93a60a57-a4c8-11da-a746-0800200c9a66", c!"Water content (mass)"⟩),
  (c!"825ef2f3-f706-4c47-8f8d-ee9ddbab3b43", ⟨c!"03.00.003", c!"93a60a57-a4c8-11da-a746-0800200c9a66", c!"Tungsten content"⟩),
  (c!"827934c0-561e-402c-82f2-f04765d180e5", ⟨c!"03.00.003", c!"93a60a57-a4c8-11da-a746-0800200c9a66", c!"Bismuth content"⟩),
  (c!"83040211-0076-4862-b172-79ce62b71187", ⟨c!"03.00.003", c!"93a60a57-a4c8-11da-a746-0800200c9a66", c!"Beryllium content"⟩),
  (c!"838aaa20-0117-11db-92e3-0800200c9a66", ⟨c!"03.00.000", c!"838aaa21-0117-11db-92e3-0800200c9a66", c!"Goods transport (mass*distance)"⟩),
  (c!"838aaa23-0117-11db-92e3-0800200c9a66", ⟨c!"03.00.000", c!"838aaa22-0117-11db-92e3-0800200c9a66", c!"Length"⟩),
  (c!"83c2eede-677e-43ec-98c8-1d801c7f1774", ⟨c!"03.00.003", c!"93a60a57-a4c8-11da-a746-0800200c9a66", c!"Xenon content"⟩),
  (c!"85aa9476-64fb-4c86-bc01-0c656b479cb8", ⟨c!"03.00.003", c!"93a60a57-a4c8-11da-a746-0800200c9a66", c!"Lithium content"⟩),
  (c!"92f2d417-544a-4fd1-bde7-25967ef93586", ⟨c!"03.00.003", c!"93a60a57-a4c8-11da-a746-0800200c9a66", c!"Molybdenum content"⟩),
  (c!"935e0cbe-3369-4537-8019-4157cf929304", ⟨c!"03.00.003", c!"93a60a57-a4c8-11da-a746-0800200c9a66", c!"Terbium content"⟩),
  (c!"93a60a56-a3c8-11da-a746-0800200b9a66", ⟨c!"03.00.003", c!"93a60a57-a4c8-11da-a746-0800200c9a66", c!"Mass"⟩),
  (c!"93a60a56-a3c8-11da-a746-0800200c9a66", ⟨c!"03.00.003", c!"93a60a57-a3c8-11da-a746-0800200c9a66", c!"Net calorific value"⟩)]

/-- `Lavoisier_Default_Files/ILCD_EF30_FlowProperties/*.xml`, files 61 to 80 in the order of their names. -/
def fpFiles4 : List (Str × FpFile) := [
  (c!"93a60a56-a3c8-14da-a746-0800200c9a66", ⟨c!"03.00.003", c!"93a60a57-a3c8-11da-a746-0800200c9a66", c!"Gross calorific value"⟩),
  (c!"93a60a56-a3c8-17da-a746-0800200c9a66", ⟨c!"03.00.003", c!"93a60a57-a3c8-16da-a746-0800200c9a66", c!"Radioactivity"⟩),
  (c!"93a60a56-a3c8-19da-a746-0800200c9a66", ⟨c!"03.00.003", c!"93a60a57-a3c8-18da-a746-0800200c9a66", c!"Area"⟩),
  (c!"93a60a56-a3c8-21da-a746-0800200c9a66", ⟨c!"03.00.003", c!"93a60a57-a3c8-20da-a746-0800200c9a66", c!"Area*time"⟩),
  (c!"93a60a56-a3c8-22da-a746-0800200c9a66", ⟨c!"03.00.003", c!"93a60a57-a3c8-12da-a746-0800200c9a66", c!"Volume"⟩),
  (c!"984505b9-8536-4e31-a312-0d1a3788f009", ⟨c!"03.00.003", c!"93a60a57-a4c8-11da-a746-0800200c9a66", c!"Chlorine content (mass)"⟩),
  (c!"98eec5a0-44db-411a-a502-95139090bc61", ⟨c!"03.00.003", c!"93a60a57-a4c8-11da-a746-0800200c9a66", c!"Iridium content"⟩),
  (c!"9bb58775-7ba8-41a7-8818-f75af4f5fe39", ⟨c!"03.00.003", c!"93a60a57-a4c8-11da-a746-0800200c9a66", c!"Platinum content"⟩),
  (c!"a0f29f45-108a-4aef-8a66-aef07ed34913", ⟨c!"03.00.003", c!"93a60a57-a4c8-11da-a746-0800200c9a66", c!"Iron content"⟩),
  (c!"a5278d68-2936-477b-b9de-7ad2d66422ec", ⟨c!"03.00.003", c!"93a60a57-a4c8-11da-a746-0800200c9a66", c!"Strontium content"⟩),
  (c!"aaa95528-e05d-4eb4-85ff-a5445b580dcc", ⟨c!"03.00.003", c!"93a60a57-a4c8-11da-a746-0800200c9a66", c!"Oxygen content (mass)"⟩),
  (c!"ab654e01-766b-411b-8902-cd6a9c40e55e", ⟨c!"03.00.003", c!"93a60a57-a4c8-11da-a746-0800200c9a66", c!"Palladium content"⟩),
  (c!"ac557972-7563-49fb-8461-29a4fe8600b7", ⟨c!"03.00.003", c!"93a60a57-a4c8-11da-a746-0800200c9a66", c!"Gallium content"⟩),
  (c!"b1192e5a-4a70-4fd7-89a2-6b798c7ed3a7", ⟨c!"03.00.003", c!"93a60a57-a4c8-11da-a746-0800200c9a66", c!"Cobalt content"⟩),
  (c!"b1dd578a-f16a-4eaa-ae08-442aa2a1a2de", ⟨c!"03.00.003", c!"93a60a57-a4c8-11da-a746-0800200c9a66", c!"Helium content (mass)"⟩),
  (c!"b3f0f892-c5a3-4c66-a432-c09e3d1e9bd6", ⟨c!"03.00.003", c!"59f191d6-5dd3-4553-af88-1a32accfe308", c!"Mass*time"⟩),
  (c!"b539c404-ce19-43fb-ba14-6a1bdd46d8be", ⟨c!"03.00.003", c!"93a60a57-a4c8-11da-a746-0800200c9a66", c!"Praseodym content"⟩),
  (c!"b7be6dba-97f0-42f6-b173-e2c6b042fbe7", ⟨c!"03.00.003", c!"93a60a57-a4c8-11da-a746-0800200c9a66", c!"Sulfur content"⟩),
  (c!"b8a29b5f-1e7e-4f15-881f-e802e42551eb", ⟨c!"03.00.003", c!"93a60a57-a4c8-11da-a746-0800200c9a66", c!"Thallium content"⟩),
  (c!"b8ef5a2b-ed75-4497-a061-1ecbbd79a380", ⟨c!"03.00.003", c!"93a60a57-a4c8-11da-a746-0800200c9a66", c!"Uranium content"⟩)]

/-- `Lavoisier_Default_Files/ILCD_EF30_FlowProperties/*.xml`, files 81 to 100 in the order of their names. -/
def fpFiles5 : List (Str × FpFile) := [
  (c!"bd9b36ca-8240-464a-bba0-01c5210a5b66", ⟨c!"03.00.003", c!"93a60a57-a4c8-11da-a746-0800200c9a66", c!"Magnesium content"⟩),
  (c!"c0447923-0e60-4b3c-97c2-a86dddd9eea5", ⟨c!"03.00.000", c!"af638906-3ec7-4314-8de7-f76039f2dd01", c!"Duration"⟩),
  (c!"c2a5d679-93be-44a1-b82f-da986e622ab9", ⟨c!"03.00.003", c!"93a60a57-a4c8-11da-a746-0800200c9a66", c!"Europium content"⟩),
  (c!"cefa9508-86b9-4fad-824e-bbf9d6fdd6f9", ⟨c!"03.00.003", c!"93a60a57-a4c8-11da-a746-0800200c9a66", c!"Arsenic content"⟩),
  (c!"d07d61ac-df46-4e74-bd49-3260c7b5fb89", ⟨c!"03.00.003", c!"93a60a57-a4c8-11da-a746-0800200c9a66", c!"Proactinium content"⟩),
  (c!"d4f76a48-d1c9-4c49-a46e-b61feb974ac4", ⟨c!"03.00.003", c!"93a60a57-a4c8-11da-a746-0800200c9a66", c!"Bromine content"⟩),
  (c!"d55035e1-5a9a-44c5-88ce-d20086ab7148", ⟨c!"03.00.003", c!"93a60a57-a4c8-11da-a746-0800200c9a66", c!"Neodymium content"⟩),
  (c!"d58f03c0-feab-4e47-aef6-4394aecc72dd", ⟨c!"03.00.003", c!"93a60a57-a4c8-11da-a746-0800200c9a66", c!"Lutetium content"⟩),
  (c!"d6b6a36c-58b3-48c7-b723-392a6df4754f", ⟨c!"03.00.003", c!"93a60a57-a4c8-11da-a746-0800200c9a66", c!"Aluminium content"⟩),
  (c!"d703ed04-22ca-4151-85ae-da1fcf54df68", ⟨c!"03.00.003", c!"93a60a57-a4c8-11da-a746-0800200c9a66", c!"Niobium content"⟩),
  (c!"d7882bb5-cb4e-4ef6-84d8-1e1b75de022c", ⟨c!"03.00.003", c!"93a60a57-a4c8-11da-a746-0800200c9a66", c!"Neon content (mass)"⟩),
  (c!"dccec68c-c1c9-42e4-9fa9-42dbb943082d", ⟨c!"03.00.003", c!"93a60a57-a4c8-11da-a746-0800200c9a66", c!"Cadmium content"⟩),
  (c!"dd77d131-c2ee-4d5a-b5d3-f7aa981ae305", ⟨c!"03.00.003", c!"93a60a57-a4c8-11da-a746-0800200c9a66", c!"Scandium content"⟩),
  (c!"e02ff80b-c3f1-4d9d-b33a-f8c3001c70b8", ⟨c!"03.00.003", c!"93a60a57-a4c8-11da-a746-0800200c9a66", c!"Rhodium content"⟩),
  (c!"e07b4169-bd86-4337-8fa6-1f76916475bf", ⟨c!"02.00.000", c!"b4cac580-5ce8-11df-a08a-0800200c9a66", c!"Length*time"⟩),
  (c!"e1b01126-0456-41b5-a29a-d6bd5095b64b", ⟨c!"03.00.003", c!"93a60a57-a4c8-11da-a746-0800200c9a66", c!"Sodium content"⟩),
  (c!"e4225227-7855-41ce-ba57-a5314fdcdcf1", ⟨c!"03.00.003", c!"93a60a57-a4c8-11da-a746-0800200c9a66", c!"Gadolinium content"⟩),
  (c!"e57088b8-0313-45c4-b791-6fdfbb59a142", ⟨c!"03.00.003", c!"93a60a57-a4c8-11da-a746-0800200c9a66", c!"Samarium content"⟩),
  (c!"e8b9419c-c36e-445f-a3a9-ace79156ac30", ⟨c!"03.00.003", c!"93a60a57-a4c8-11da-a746-0800200c9a66", c!"Erbium content"⟩),
  (c!"f18a0b1c-59ec-4c76-ae20-bc6c522547b3", ⟨c!"03.00.003", c!"93a60a57-a4c8-11da-a746-0800200c9a66", c!"Tellurium content"⟩)]

/-- `Lavoisier_Default_Files/ILCD_EF30_FlowProperties/*.xml`, files 101 to 108 in the order of their names. -/
def fpFiles6 : List (Str × FpFile) := [
  (c!"f2149ae0-b105-4299-b1f1-cf1fd1577867", ⟨c!"03.00.003", c!"93a60a57-a4c8-11da-a746-0800200c9a66", c!"Chromium content"⟩),
  (c!"f33b22c4-e0e7-4fa6-ae2b-246ecb0a16eb", ⟨c!"03.00.003", c!"93a60a57-a4c8-11da-a746-0800200c9a66", c!"Nickel content"⟩),
  (c!"f3e1017d-1aa3-4763-b563-9494858e1ec7", ⟨c!"03.00.003", c!"93a60a57-a4c8-11da-a746-0800200c9a66", c!"Hydrogen content (mass)"⟩),
  (c!"f65d356a-d702-4d79-850e-dd68b47bbcd9", ⟨c!"03.00.003", c!"5beb6eed-33a9-47b8-9ede-1dfe8f679159", c!"Comparative Toxic Unit for human (CTUh)"⟩),
  (c!"f6811440-ee37-11de-8a39-0800200c9a66", ⟨c!"00.00.000", c!"93a60a57-a3c8-11da-a746-0800200c9a66", c!"Energy"⟩),
  (c!"fa48378a-140a-4a0a-bf23-2bd64eac7c7c", ⟨c!"03.00.003", c!"93a60a57-a3c8-12da-a746-0800200c9a66", c!"Methane content (volume)"⟩),
  (c!"fa94ba11-2720-441d-b432-a2774f3ab1ad", ⟨c!"03.00.003", c!"93a60a57-a4c8-11da-a746-0800200c9a66", c!"Gold content"⟩),
  (c!"fec15e58-109a-4775-bc6f-72ca0b9b3cee", ⟨c!"03.00.003", c!"93a60a57-a4c8-11da-a746-0800200c9a66", c!"Carbon content"⟩)]

/-- All flow property files of `Lavoisier_Default_Files/ILCD_EF30_FlowProperties`. -/
def fpFiles : List (Str × FpFile) :=
  fpFiles1 ++ fpFiles2 ++ fpFiles3 ++ fpFiles4 ++ fpFiles5 ++ fpFiles6

/-- All unit group files of `Lavoisier_Default_Files/ILCD_EF30_UnitGroups`. -/
def ugFiles : List (Str × UgFile) := [
  (c!"03cc996d-7177-4738-aa32-1572a5172ccc", ⟨c!"0", [⟨c!"0", c!"EUR", c!"1"⟩, ⟨c!"1", c!"$", c!"1.1573037276"⟩, ⟨c!"2", c!"DM", c!"1.95583"⟩, ⟨c!"3", c!"sFr", c!"1.6617122846"⟩, ⟨c!"4", c!"Yen", c!"100"⟩]⟩),
  (c!"1acf7c0f-aa9d-4022-a4b7-fe0b54ea0b91", ⟨c!"0", [⟨c!"0", c!"Items*a", c!"1.0"⟩]⟩),
  (c!"5454b231-270e-45e6-89b2-7f4f3e482245", ⟨c!"0", [⟨c!"0", c!"Items*km", c!"1.0"⟩, ⟨c!"1", c!"Items*mi", c!"1.609344"⟩, ⟨c!"2", c!"Items*nmi", c!"1.852"⟩]⟩),
  (c!"59f191d6-5dd3-4553-af88-1a32accfe308", ⟨c!"0", [⟨c!"0", c!"kg*a", c!"1.0"⟩, ⟨c!"1", c!"t*a", c!"1000.0"⟩, ⟨c!"2", c!"kg*d", c!"0.002739726"⟩, ⟨c!"3", c!"t*d", c!"2.739726"⟩]⟩),
  (c!"5beb6eed-33a9-47b8-9ede-1dfe8f679159", ⟨c!"0", [⟨c!"0", c!"Item(s)", c!"1.0"⟩, ⟨c!"1", c!"Dozen(s)", c!"12.0"⟩]⟩),
  (c!"838aaa21-0117-11db-92e3-0800200c9a66", ⟨c!"0", [⟨c!"0", c!"t*km", c!"1.0"⟩, ⟨c!"1", c!"kg*km", c!"0.0010"⟩, ⟨c!"2", c!"lb*mi", c!"7.29986E-4"⟩, ⟨c!"3", c!"t*mi", c!"1.609344"⟩, ⟨c!"4", c!"t*nmi", c!"1.852"⟩, ⟨c!"5", c!"lb*nmi", c!"8.40053E-4"⟩]⟩),
  (c!"838aaa22-0117-11db-92e3-0800200c9a66", ⟨c!"0", [⟨c!"0", c!"m", c!"1.0"⟩, ⟨c!"1", c!"km", c!"1000.0"⟩, ⟨c!"2", c!"cm", c!"0.01"⟩, ⟨c!"3", c!"mm", c!"0.0010"⟩, ⟨c!"4", c!"ft", c!"0.3048"⟩, ⟨c!"5", c!"mi", c!"1609.347"⟩, ⟨c!"6", c!"in", c!"0.0254"⟩, ⟨c!"7", c!"u", c!"1.0E-6"⟩, ⟨c!"8", c!"nmi", c!"1852.0"⟩, ⟨c!"9", c!"yd", c!"0.9144"⟩]⟩),
  (c!"93a60a57-a3c8-11da-a746-0800200c9a66", ⟨c!"0", [⟨c!"0", c!"MJ", c!"1.0"⟩, ⟨c!"1", c!"kWh", c!"3.6"⟩, ⟨c!"2", c!"TOE", c!"41868.0"⟩, ⟨c!"3", c!"J", c!"1.0E-6"⟩, ⟨c!"4", c!"kcal", c!"0.0041867"⟩, ⟨c!"5", c!"btu", c!"0.001055056"⟩, ⟨c!"6", c!"MWh", c!"3600.0"⟩, ⟨c!"7", c!"TCE", c!"29307.6"⟩, ⟨c!"8", c!"GJ", c!"1000.0"⟩]⟩),
  (c!"93a60a57-a3c8-12da-a746-0800200c9a66", ⟨c!"0", [⟨c!"0", c!"m3", c!"1.0"⟩, ⟨c!"1", c!"l", c!"0.0010"⟩, ⟨c!"2", c!"gal (US dry)", c!"0.00440488377086"⟩, ⟨c!"3", c!"gal (US liq)", c!"0.003785412"⟩, ⟨c!"4", c!"cu ft", c!"0.028316846592"⟩, ⟨c!"5", c!"fl oz (Imp)", c!"2.84130625E-5"⟩, ⟨c!"6", c!"US fl oz", c!"2.95735295625E-5"⟩, ⟨c!"7", c!"pt (Imp)", c!"5.6826125E-4"⟩, ⟨c!"8", c!"pt (US fl)", c!"4.73176473E-4"⟩, ⟨c!"9", c!"pt (US dry)", c!"5.506104713575E-4"⟩, ⟨c!"10", c!"gal (US fl)", c!"0.003785411784"⟩, ⟨c!"11", c!"gal (Imp)", c!"0.00454609"⟩, ⟨c!"12", c!"bsh (US)", c!"0.03523907017"⟩, ⟨c!"13", c!"bsh (Imp)", c!"0.03636872"⟩, ⟨c!"14", c!"ml", c!"1.0E-6"⟩, ⟨c!"15", c!"ul", c!"1.0E-9"⟩, ⟨c!"16", c!"bbl", c!"0.158987294928"⟩, ⟨c!"17", c!"bl (US beer)", c!"0.1173477"⟩, ⟨c!"18", c!"bl (US fl)", c!"0.119240471196"⟩, ⟨c!"19", c!"bl (Imp)", c!"0.16365924"⟩, ⟨c!"20", c!"bl (US dry)", c!"0.115628198985075"⟩]⟩),
  (c!"93a60a57-a3c8-16da-a746-0800200c9a66", ⟨c!"0", [⟨c!"0", c!"kBq", c!"1.0"⟩, ⟨c!"1", c!"Bq", c!"0.0010"⟩, ⟨c!"2", c!"Ci", c!"3.7E7"⟩, ⟨c!"3", c!"Rutherford", c!"1000.0"⟩]⟩),
  (c!"93a60a57-a3c8-18da-a746-0800200c9a66", ⟨c!"0", [⟨c!"0", c!"m2", c!"1.0"⟩, ⟨c!"1", c!"km2", c!"1000000.0"⟩, ⟨c!"2", c!"ha", c!"10000.0"⟩, ⟨c!"3", c!"ft2", c!"0.09290304"⟩, ⟨c!"4", c!"mi2", c!"2589988.11"⟩, ⟨c!"5", c!"ac", c!"4046.856"⟩, ⟨c!"6", c!"yd2", c!"0.83612736"⟩, ⟨c!"7", c!"a", c!"100.0"⟩, ⟨c!"8", c!"cm2", c!"1.0E-4"⟩, ⟨c!"9", c!"nmi2", c!"3429904.0"⟩]⟩),
  (c!"93a60a57-a3c8-20da-a746-0800200c9a66", ⟨c!"0", [⟨c!"0", c!"m2*a", c!"1.0"⟩, ⟨c!"1", c!"km2*a", c!"1000000.0"⟩, ⟨c!"2", c!"ha*a", c!"10000.0"⟩, ⟨c!"3", c!"ft2*a", c!"0.09290304"⟩, ⟨c!"4", c!"mi2*a", c!"2589988.1"⟩, ⟨c!"5", c!"m2*d", c!"0.002739726"⟩]⟩),
  (c!"93a60a57-a3c8-23da-a746-0800200c9a66", ⟨c!"0", [⟨c!"0", c!"m3*a", c!"1"⟩, ⟨c!"1", c!"l*a", c!"0.001"⟩]⟩),
  (c!"93a60a57-a4c8-11da-a746-0800200c9a66", ⟨c!"0", [⟨c!"0", c!"kg", c!"1.0"⟩, ⟨c!"1", c!"t", c!"1000.0"⟩, ⟨c!"2", c!"lb av", c!"0.45359237"⟩, ⟨c!"3", c!"Mg", c!"1000.0"⟩, ⟨c!"4", c!"kt", c!"2.0E-4"⟩, ⟨c!"5", c!"oz av", c!"0.028349523125"⟩, ⟨c!"6", c!"oz t", c!"0.0311034768"⟩, ⟨c!"7", c!"sh tn", c!"907.18474"⟩, ⟨c!"8", c!"long tn", c!"1016.0469088"⟩, ⟨c!"9", c!"g", c!"0.0010"⟩, ⟨c!"10", c!"mg", c!"1.0E-6"⟩, ⟨c!"11", c!"ug", c!"1.0E-9"⟩, ⟨c!"12", c!"ng", c!"1.0E-12"⟩, ⟨c!"13", c!"pg", c!"1.0E-15"⟩]⟩),
  (c!"af638906-3ec7-4314-8de7-f76039f2dd01", ⟨c!"3", [⟨c!"0", c!"d", c!"1.0"⟩, ⟨c!"1", c!"h", c!"0.04166666"⟩, ⟨c!"2", c!"s", c!"1.1574074E-5"⟩, ⟨c!"3", c!"a", c!"365.0"⟩, ⟨c!"4", c!"min", c!"6.94444444E-4"⟩]⟩),
  (c!"b4cac580-5ce8-11df-a08a-0800200c9a66", ⟨c!"0", [⟨c!"0", c!"m*a", c!"1.0"⟩]⟩),
  (c!"da299c4d-1741-4da8-9fbd-5ccfb5e1d688", ⟨c!"0", [⟨c!"0", c!"EUR", c!"1.0"⟩, ⟨c!"1", c!"USD", c!"1.1"⟩, ⟨c!"2", c!"JPY", c!"0.01"⟩, ⟨c!"6", c!"AUD", c!"0.63"⟩, ⟨c!"7", c!"CAD", c!"0.73"⟩, ⟨c!"8", c!"DKK", c!"0.134"⟩, ⟨c!"9", c!"CZK", c!"0.028"⟩, ⟨c!"11", c!"CHF", c!"0.64"⟩, ⟨c!"12", c!"EEK", c!"0.064"⟩, ⟨c!"13", c!"GBP", c!"1.65"⟩, ⟨c!"15", c!"HUF", c!"0.0038"⟩, ⟨c!"16", c!"ISK", c!"0.0136"⟩, ⟨c!"17", c!"KRW", c!"9.5E-4"⟩, ⟨c!"18", c!"LTL", c!"0.27"⟩, ⟨c!"19", c!"LVL", c!"1.78"⟩, ⟨c!"22", c!"NOK", c!"0.12"⟩, ⟨c!"25", c!"SEK", c!"0.12"⟩, ⟨c!"28", c!"ZAR", c!"0.156"⟩]⟩),
  (c!"f170abd3-f010-45f4-8e7c-9871a5c0421b", ⟨c!"0", [⟨c!"0", c!"mol", c!"1.0"⟩]⟩)]

end Verif.RefUnits
