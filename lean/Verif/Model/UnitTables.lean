/-
The tables of units and flow properties, transcribed from src/Lavoisier/conversions/units.py (generated from its text).
A table is a list of pairs in the order of the source, without the keys that a later pair replaces. Of the tuples
only the parts that the code reads are kept.
-/
import Verif.Model.Assoc

namespace Verif.Units

/-- A flow property of ILCD in `pint_to_ilcd_fp`: its identifier, the identifier of its unit group, its version and its
name. -/
structure Ilcd where
  fp : Str
  group : Str
  version : Str
  name : Str
  deriving DecidableEq

/-- A property of EcoSpold2 in `ilcd_to_ecs2_fp`: the identifier and the name of the unit, the identifier and the name of
the property, and the variants per mass and per volume. -/
structure Ecs where
  unitId : Str
  unitName : Str
  id : Str
  name : Str
  mass : Option (Str × Str)
  volume : Option (Str × Str)
  deriving DecidableEq

/-- `pint_to_ilcd_def`, units.py:138-157: from the hash of a dimension to the unit of ILCD (identifier of its group, name, name for pint). -/
def pintToIlcdDef : List (Str × (Str × Str × Str)) := [
  (c!"329b50e2-c594-39e9-953c-04c61d81d61e", (c!"1acf7c0f-aa9d-4022-a4b7-fe0b54ea0b91", c!"Items*a", c!"item*a")),
  (c!"60a18d85-9c22-3f47-b932-2447513880c9", (c!"5beb6eed-33a9-47b8-9ede-1dfe8f679159", c!"Item(s)", c!"item")),
  (c!"f09fb2f1-8af1-3630-8463-c7ebc26474be", (c!"93a60a57-a3c8-11da-a746-0800200c9a66", c!"MJ", c!"MJ")),
  (c!"5f4bed1b-40a0-39cd-9fbe-798c54c5d5a5", (c!"93a60a57-a3c8-12da-a746-0800200c9a66", c!"m3", c!"m**3")),
  (c!"9441711e-e3ae-36cd-bfaf-83783500857f", (c!"838aaa21-0117-11db-92e3-0800200c9a66", c!"t*km", c!"t*km")),
  (c!"40c11086-1e24-3103-8226-47fc3d6f8d57", (c!"838aaa22-0117-11db-92e3-0800200c9a66", c!"m", c!"m")),
  (c!"e132038d-01c0-35ce-a697-b8892ced1280", (c!"5454b231-270e-45e6-89b2-7f4f3e482245", c!"Items*km", c!"item*km")),
  (c!"d5b44662-691e-39e9-b139-c306815ffd72", (c!"93a60a57-a3c8-16da-a746-0800200c9a66", c!"kBq", c!"kBq")),
  (c!"98c1db98-9766-3362-8e79-aedf42522267", (c!"93a60a57-a3c8-18da-a746-0800200c9a66", c!"m2", c!"m**2")),
  (c!"174a2f50-251e-374d-81c7-088f905c30cd", (c!"93a60a57-a3c8-20da-a746-0800200c9a66", c!"m2*a", c!"m**2*a")),
  (c!"080aba62-dce7-313f-a6f1-2d94db4d5a97", (c!"93a60a57-a3c8-23da-a746-0800200c9a66", c!"m3*a", c!"m**3*a")),
  (c!"7844486d-bbaf-3c45-9487-7fe3476c5b6f", (c!"93a60a57-a4c8-11da-a746-0800200c9a66", c!"kg", c!"kg")),
  (c!"5f5fa142-2703-39f2-bf19-ff33f435cc49", (c!"af638906-3ec7-4314-8de7-f76039f2dd01", c!"d", c!"day")),
  (c!"e2c902a8-5a87-34ea-b6cb-f9579afa41f9", (c!"b4cac580-5ce8-11df-a08a-0800200c9a66", c!"m*a", c!"m*a")),
  (c!"ca2f7f9a-ae4e-3c80-9388-b7bc26a8bf4d", (c!"f170abd3-f010-45f4-8e7c-9871a5c0421b", c!"mol", c!"mol")),
  (c!"371b6515-6488-399b-9364-b9125dcf5ef2", (c!"ff8ed45d-bbfb-4531-8c7b-9b95e52bd41d", c!"m3*km", c!"m**3*km")),
  (c!"7cd6e908-4c0a-35b9-9530-620e5877f4e5", (c!"da299c4d-1741-4da8-9fbd-5ccfb5e1d688", c!"EUR2000", c!"EUR2000")),
  (c!"86e381c9-d6d4-3241-b8f6-3d78596aa3cc", (c!"59f191d6-5dd3-4553-af88-1a32accfe308", c!"kg*a", c!"kg*a"))]

/-- A part of `pintToIlcdFp` below. -/
def pintToIlcdFp1 : List (Str × Ilcd) := [
  (c!"60a18d85-9c22-3f47-b932-2447513880c9", ⟨c!"01846770-4cfe-4a25-8ad9-919d8d378345", c!"5beb6eed-33a9-47b8-9ede-1dfe8f679159", c!"03.00.004", c!"Number of items"⟩),
  (c!"f09fb2f1-8af1-3630-8463-c7ebc26474be", ⟨c!"93a60a56-a3c8-11da-a746-0800200c9a66", c!"93a60a57-a3c8-11da-a746-0800200c9a66", c!"03.00.003", c!"Net calorific value"⟩),
  (c!"f09fb2f1-8af1-3630-8463-c7ebc26474bf", ⟨c!"93a60a56-a3c8-14da-a746-0800200c9a66", c!"93a60a57-a3c8-11da-a746-0800200c9a66", c!"03.00.003", c!"Gross calorific value"⟩),
  (c!"5f4bed1b-40a0-39cd-9fbe-798c54c5d5a5", ⟨c!"93a60a56-a3c8-22da-a746-0800200c9a66", c!"93a60a57-a3c8-12da-a746-0800200c9a66", c!"03.00.003", c!"Volume"⟩),
  (c!"9441711e-e3ae-36cd-bfaf-83783500857f", ⟨c!"838aaa20-0117-11db-92e3-0800200c9a66", c!"838aaa21-0117-11db-92e3-0800200c9a66", c!"03.00.000", c!"Goods transport (mass*distance)"⟩),
  (c!"40c11086-1e24-3103-8226-47fc3d6f8d57", ⟨c!"838aaa23-0117-11db-92e3-0800200c9a66", c!"838aaa22-0117-11db-92e3-0800200c9a66", c!"03.00.000", c!"Length"⟩),
  (c!"e132038d-01c0-35ce-a697-b8892ced1280", ⟨c!"1cc347a0-3bd1-46db-a308-2707c68d2351", c!"5454b231-270e-45e6-89b2-7f4f3e482245", c!"03.00.000", c!"Person transport"⟩),
  (c!"d5b44662-691e-39e9-b139-c306815ffd72", ⟨c!"93a60a56-a3c8-17da-a746-0800200c9a66", c!"93a60a57-a3c8-16da-a746-0800200c9a66", c!"03.00.003", c!"Radioactivity"⟩),
  (c!"98c1db98-9766-3362-8e79-aedf42522267", ⟨c!"93a60a56-a3c8-19da-a746-0800200c9a66", c!"93a60a57-a3c8-18da-a746-0800200c9a66", c!"03.00.003", c!"Area"⟩),
  (c!"174a2f50-251e-374d-81c7-088f905c30cd", ⟨c!"93a60a56-a3c8-21da-a746-0800200c9a66", c!"93a60a57-a3c8-20da-a746-0800200c9a66", c!"03.00.003", c!"Area*time"⟩),
  (c!"080aba62-dce7-313f-a6f1-2d94db4d5a97", ⟨c!"441238a3-ba09-46ec-b35b-c30cfba746d1", c!"93a60a57-a3c8-23da-a746-0800200c9a66", c!"02.00.003", c!"Volume*time"⟩),
  (c!"7844486d-bbaf-3c45-9487-7fe3476c5b6f", ⟨c!"93a60a56-a3c8-11da-a746-0800200b9a66", c!"93a60a57-a4c8-11da-a746-0800200c9a66", c!"03.00.003", c!"Mass"⟩),
  (c!"5f5fa142-2703-39f2-bf19-ff33f435cc49", ⟨c!"c0447923-0e60-4b3c-97c2-a86dddd9eea5", c!"af638906-3ec7-4314-8de7-f76039f2dd01", c!"03.00.000", c!"Duration"⟩),
  (c!"e2c902a8-5a87-34ea-b6cb-f9579afa41f9", ⟨c!"e07b4169-bd86-4337-8fa6-1f76916475bf", c!"b4cac580-5ce8-11df-a08a-0800200c9a66", c!"02.00.000", c!"Length*time"⟩),
  (c!"7cd6e908-4c0a-35b9-9530-620e5877f4e5", ⟨c!"67b63204-ef91-44b2-a927-2f4ead1fae17", c!"da299c4d-1741-4da8-9fbd-5ccfb5e1d688", c!"03.00.000", c!"Currency"⟩),
  (c!"86e381c9-d6d4-3241-b8f6-3d78596aa3cc", ⟨c!"b3f0f892-c5a3-4c66-a432-c09e3d1e9bd6", c!"59f191d6-5dd3-4553-af88-1a32accfe308", c!"03.00.003", c!"Mass*time"⟩),
  (c!"38f94dd1-d5aa-41b8-b182-c0c42985d9dc", ⟨c!"67b63204-ef91-44b2-a927-2f4ead1fae17", c!"da299c4d-1741-4da8-9fbd-5ccfb5e1d688", c!"03.00.000", c!"price"⟩),
  (c!"7a3978ea-3e26-4329-bc8b-0915d58a7e6f", ⟨c!"67b63204-ef91-44b2-a927-2f4ead1fae17", c!"da299c4d-1741-4da8-9fbd-5ccfb5e1d688", c!"03.00.000", c!"true value relation"⟩),
  (c!"6bc8ac5e-cc4c-45fb-93dc-53c0e45091df", ⟨c!"93a60a56-a3c8-14da-a746-0800200c9a66", c!"93a60a57-a3c8-11da-a746-0800200c9a66", c!"03.00.003", c!"energy content"⟩),
  (c!"d61b8768-8ef6-4a99-ae16-9e51f24ad5b5", ⟨c!"93a60a56-a3c8-14da-a746-0800200c9a66", c!"93a60a57-a3c8-11da-a746-0800200c9a66", c!"03.00.003", c!"heating value, gross"⟩)]

/-- A part of `pintToIlcdFp` below. -/
def pintToIlcdFp2 : List (Str × Ilcd) := [
  (c!"48c987bb-3144-4872-b5c7-b1389c40be25", ⟨c!"93a60a56-a3c8-11da-a746-0800200c9a66", c!"93a60a57-a3c8-11da-a746-0800200c9a66", c!"03.00.003", c!"heating value, net"⟩),
  (c!"ed229b01-1b3f-4754-8871-5e88a83f3725", ⟨c!"f2149ae0-b105-4299-b1f1-cf1fd1577867", c!"93a60a57-a4c8-11da-a746-0800200c9a66", c!"03.00.003", c!"concentration, chromium"⟩),
  (c!"bca4bb32-f701-46bb-ba1e-bad477c19f7f", ⟨c!"f2149ae0-b105-4299-b1f1-cf1fd1577867", c!"93a60a57-a4c8-11da-a746-0800200c9a66", c!"03.00.003", c!"mass concentration, chromium"⟩),
  (c!"e1d2c19b-3a97-4f52-a83f-fe88400452c2", ⟨c!"f2149ae0-b105-4299-b1f1-cf1fd1577867", c!"93a60a57-a4c8-11da-a746-0800200c9a66", c!"03.00.003", c!"chromium content"⟩),
  (c!"35d16e49-9e29-4e1d-ac22-ea7f84fb76e1", ⟨c!"ac557972-7563-49fb-8461-29a4fe8600b7", c!"93a60a57-a4c8-11da-a746-0800200c9a66", c!"03.00.003", c!"mass concentration, gallium"⟩),
  (c!"a17f5864-6177-4619-82c5-3426c8c64e7d", ⟨c!"ac557972-7563-49fb-8461-29a4fe8600b7", c!"93a60a57-a4c8-11da-a746-0800200c9a66", c!"03.00.003", c!"gallium content"⟩),
  (c!"2f7030b9-bafc-4b43-8504-deb8b5044130", ⟨c!"b1192e5a-4a70-4fd7-89a2-6b798c7ed3a7", c!"93a60a57-a4c8-11da-a746-0800200c9a66", c!"03.00.003", c!"mass concentration, cobalt"⟩),
  (c!"66e996b5-5f7b-449f-8893-0b787af21d7e", ⟨c!"b1192e5a-4a70-4fd7-89a2-6b798c7ed3a7", c!"93a60a57-a4c8-11da-a746-0800200c9a66", c!"03.00.003", c!"cobalt content"⟩),
  (c!"d574cc22-07f2-4202-b564-1116ab197692", ⟨c!"a5278d68-2936-477b-b9de-7ad2d66422ec", c!"93a60a57-a4c8-11da-a746-0800200c9a66", c!"03.00.003", c!"mass concentration, strontium"⟩),
  (c!"995265a2-f2cb-4c12-a961-766eb34392b9", ⟨c!"a5278d68-2936-477b-b9de-7ad2d66422ec", c!"93a60a57-a4c8-11da-a746-0800200c9a66", c!"03.00.003", c!"strontium content"⟩),
  (c!"1325d7f9-2fe2-4226-9304-ad9e5371e08f", ⟨c!"dd77d131-c2ee-4d5a-b5d3-f7aa981ae305", c!"93a60a57-a4c8-11da-a746-0800200c9a66", c!"03.00.003", c!"mass concentration, scandium"⟩),
  (c!"35d2e0b2-eca5-4897-a6af-b6d2e61a9079", ⟨c!"dd77d131-c2ee-4d5a-b5d3-f7aa981ae305", c!"93a60a57-a4c8-11da-a746-0800200c9a66", c!"03.00.003", c!"scandium content"⟩),
  (c!"3759d833-560a-4dbb-949e-afc63c0ade26", ⟨c!"435e1d0e-e36e-4d4a-9cd1-7fd2c135da61", c!"93a60a57-a4c8-11da-a746-0800200c9a66", c!"03.00.003", c!"mass concentration, antimony"⟩),
  (c!"4054bfa7-dfcb-452e-b1dd-810b9e981506", ⟨c!"435e1d0e-e36e-4d4a-9cd1-7fd2c135da61", c!"93a60a57-a4c8-11da-a746-0800200c9a66", c!"03.00.003", c!"antimony content"⟩),
  (c!"a7e81e5c-d3b9-421c-bf6f-7cafcf911ab7", ⟨c!"c2a5d679-93be-44a1-b82f-da986e622ab9", c!"93a60a57-a4c8-11da-a746-0800200c9a66", c!"03.00.003", c!"mass concentration, europium"⟩),
  (c!"0b27405b-3e4d-45aa-bb5c-3c52d2b04e0e", ⟨c!"c2a5d679-93be-44a1-b82f-da986e622ab9", c!"93a60a57-a4c8-11da-a746-0800200c9a66", c!"03.00.003", c!"europium content"⟩),
  (c!"d33e6732-d2f8-4441-ba03-e39d4a1228a5", ⟨c!"7eb6e3cb-0c12-4216-99b5-2032906d42ca", c!"93a60a57-a4c8-11da-a746-0800200c9a66", c!"03.00.003", c!"mass concentration. lanthanum"⟩),
  (c!"94b2be61-35f2-40fb-b9ab-636ae5a0415b", ⟨c!"7eb6e3cb-0c12-4216-99b5-2032906d42ca", c!"93a60a57-a4c8-11da-a746-0800200c9a66", c!"03.00.003", c!"lanthanum content"⟩),
  (c!"a301a838-7975-4d89-9e74-8eb77ad03cd1", ⟨c!"fec15e58-109a-4775-bc6f-72ca0b9b3cee", c!"93a60a57-a4c8-11da-a746-0800200c9a66", c!"03.00.003", c!"carbon content"⟩),
  (c!"d388e0ab-8411-4347-8174-c5bf5fd14296", ⟨c!"fec15e58-109a-4775-bc6f-72ca0b9b3cee", c!"93a60a57-a4c8-11da-a746-0800200c9a66", c!"03.00.003", c!"mass concentration, carbone dioxide"⟩)]

/-- A part of `pintToIlcdFp` below. -/
def pintToIlcdFp3 : List (Str × Ilcd) := [
  (c!"c74c3729-e577-4081-b572-a283d2561a75", ⟨c!"64b8e725-b0ba-4837-abb9-62dc0e7b9f6f", c!"93a60a57-a4c8-11da-a746-0800200c9a66", c!"03.00.003", c!"carbon content, fossil"⟩),
  (c!"6393c14b-db78-445d-a47b-c0cb866a1b25", ⟨c!"62e503ce-544a-4599-b2ad-bcea15a7bf20", c!"93a60a57-a4c8-11da-a746-0800200c9a66", c!"03.00.003", c!"carbon content, non-fossil"⟩),
  (c!"883a9dc6-bbb5-418c-8d6e-7031e96028ef", ⟨c!"62e503ce-544a-4599-b2ad-bcea15a7bf20", c!"93a60a57-a4c8-11da-a746-0800200c9a66", c!"03.00.003", c!"organic carbon content"⟩),
  (c!"044617f2-c1d4-4592-94c6-bb325139e231", ⟨c!"62e503ce-544a-4599-b2ad-bcea15a7bf20", c!"93a60a57-a4c8-11da-a746-0800200c9a66", c!"03.00.003", c!"Organic Carbon content of soil"⟩),
  (c!"1ced5983-2a7b-49af-b6cd-ad4ebaafba89", ⟨c!"b539c404-ce19-43fb-ba14-6a1bdd46d8be", c!"93a60a57-a4c8-11da-a746-0800200c9a66", c!"03.00.003", c!"mass concentration, praseodymium"⟩),
  (c!"4fb17587-2c03-4b4e-b38b-867cfd4bfae8", ⟨c!"b539c404-ce19-43fb-ba14-6a1bdd46d8be", c!"93a60a57-a4c8-11da-a746-0800200c9a66", c!"03.00.003", c!"praseodymium content"⟩),
  (c!"cea619b8-1a76-4680-8b55-cdf682a3b32a", ⟨c!"76d611d0-a0a5-43d5-b391-a4e7ec463052", c!"93a60a57-a4c8-11da-a746-0800200c9a66", c!"03.00.003", c!"concentration, calcium"⟩),
  (c!"ddbab0d1-b156-41bc-98e5-fb680285d7cd", ⟨c!"76d611d0-a0a5-43d5-b391-a4e7ec463052", c!"93a60a57-a4c8-11da-a746-0800200c9a66", c!"03.00.003", c!"mass concentration, calcium"⟩),
  (c!"f9da385d-5b1b-4548-826c-0bf5892a9fd9", ⟨c!"76d611d0-a0a5-43d5-b391-a4e7ec463052", c!"93a60a57-a4c8-11da-a746-0800200c9a66", c!"03.00.003", c!"calcium content"⟩),
  (c!"468e50e8-1960-4eba-bc1a-a9938a301694", ⟨c!"984505b9-8536-4e31-a312-0d1a3788f009", c!"93a60a57-a4c8-11da-a746-0800200c9a66", c!"03.00.003", c!"mass concentration, chlorine"⟩),
  (c!"66d4c921-658a-4ba0-b190-c6e09e57d74a", ⟨c!"984505b9-8536-4e31-a312-0d1a3788f009", c!"93a60a57-a4c8-11da-a746-0800200c9a66", c!"03.00.003", c!"chlorine content"⟩),
  (c!"f0e05731-4b64-4a8a-a216-a7ad908d76bc", ⟨c!"3da87ad0-733e-4ca9-b234-75ef52ca2a2d", c!"93a60a57-a4c8-11da-a746-0800200c9a66", c!"03.00.003", c!"mass concentration, holmium"⟩),
  (c!"86937b4e-c531-4ce5-b65e-ce0d17d3ca27", ⟨c!"3da87ad0-733e-4ca9-b234-75ef52ca2a2d", c!"93a60a57-a4c8-11da-a746-0800200c9a66", c!"03.00.003", c!"holmium content"⟩),
  (c!"f53a5dbc-3bd3-4570-adff-b00790ea3ffc", ⟨c!"085af809-5dc6-4920-aaa1-4ac493ae4af8", c!"93a60a57-a4c8-11da-a746-0800200c9a66", c!"03.00.003", c!"nitrogen content"⟩),
  (c!"7980069a-3764-4d47-81b0-6cd0b79cc8f6", ⟨c!"085af809-5dc6-4920-aaa1-4ac493ae4af8", c!"93a60a57-a4c8-11da-a746-0800200c9a66", c!"03.00.003", c!"Organic Nitrogen content of soil"⟩),
  (c!"cf66b969-7413-4ee7-aaf1-8a3b47904836", ⟨c!"085af809-5dc6-4920-aaa1-4ac493ae4af8", c!"93a60a57-a4c8-11da-a746-0800200c9a66", c!"03.00.003", c!"concentration, nitrogen"⟩),
  (c!"f04a971d-f503-4ca0-b2b1-0ecd2e53ea61", ⟨c!"085af809-5dc6-4920-aaa1-4ac493ae4af8", c!"93a60a57-a4c8-11da-a746-0800200c9a66", c!"03.00.003", c!"mass concentration, nitrogen"⟩),
  (c!"88c9f622-8451-41aa-98b0-c56b191a7e0a", ⟨c!"085af809-5dc6-4920-aaa1-4ac493ae4af8", c!"93a60a57-a4c8-11da-a746-0800200c9a66", c!"03.00.003", c!"mass concentration, particulate nitrogen"⟩),
  (c!"1ae79861-a8a8-4118-aa6b-eb93351f315b", ⟨c!"2e4695ff-d6a5-42c2-9816-6dbd6c859707", c!"93a60a57-a4c8-11da-a746-0800200c9a66", c!"03.00.003", c!"mass concentration, radium"⟩),
  (c!"8daf1327-bd94-4903-8e7b-5fe7731a259b", ⟨c!"2e4695ff-d6a5-42c2-9816-6dbd6c859707", c!"93a60a57-a4c8-11da-a746-0800200c9a66", c!"03.00.003", c!"radium content"⟩)]

/-- A part of `pintToIlcdFp` below. -/
def pintToIlcdFp4 : List (Str × Ilcd) := [
  (c!"40a28310-9574-4867-88fb-623fa7ed1fa3", ⟨c!"f3e1017d-1aa3-4763-b563-9494858e1ec7", c!"93a60a57-a4c8-11da-a746-0800200c9a66", c!"03.00.003", c!"mass concentration, hydrogen"⟩),
  (c!"2d23d1bb-e137-4ade-83fc-fbd0421e6cd5", ⟨c!"f3e1017d-1aa3-4763-b563-9494858e1ec7", c!"93a60a57-a4c8-11da-a746-0800200c9a66", c!"03.00.003", c!"hydrogen content"⟩),
  (c!"76b0b954-ae61-4ac8-a585-700724fd53a6", ⟨c!"078ecf46-26d6-47e3-8128-fcced884d1cd", c!"93a60a57-a4c8-11da-a746-0800200c9a66", c!"03.00.003", c!"mass concentration, germanium"⟩),
  (c!"fe9f0d92-ecdf-4e72-bd20-fadd3b6175bf", ⟨c!"078ecf46-26d6-47e3-8128-fcced884d1cd", c!"93a60a57-a4c8-11da-a746-0800200c9a66", c!"03.00.003", c!"germanium content"⟩),
  (c!"cf6fc65c-b941-4211-89c8-ec3aec00b076", ⟨c!"0bb4f3ac-2944-4263-8587-ea6eac2d24ac", c!"93a60a57-a4c8-11da-a746-0800200c9a66", c!"03.00.003", c!"mass concentration, rhenium"⟩),
  (c!"48b2521b-63f6-4121-9c3f-8edef7b31fc5", ⟨c!"0bb4f3ac-2944-4263-8587-ea6eac2d24ac", c!"93a60a57-a4c8-11da-a746-0800200c9a66", c!"03.00.003", c!"rhenium content"⟩),
  (c!"33976f6b-2575-4410-8f60-d421bdf3e554", ⟨c!"5db5be2d-8df6-432b-ab3d-ffde49d3fe7f", c!"93a60a57-a4c8-11da-a746-0800200c9a66", c!"03.00.003", c!"mass concentration, barium"⟩),
  (c!"1dcfb203-7830-40b2-878d-13fc02a74051", ⟨c!"5db5be2d-8df6-432b-ab3d-ffde49d3fe7f", c!"93a60a57-a4c8-11da-a746-0800200c9a66", c!"03.00.003", c!"barium content"⟩),
  (c!"9adea776-5feb-432f-8f16-34d78ed99306", ⟨c!"9bb58775-7ba8-41a7-8818-f75af4f5fe39", c!"93a60a57-a4c8-11da-a746-0800200c9a66", c!"03.00.003", c!"mass concentration, platinum"⟩),
  (c!"832bb926-0c7d-4b16-bf36-fc69665afe8b", ⟨c!"9bb58775-7ba8-41a7-8818-f75af4f5fe39", c!"93a60a57-a4c8-11da-a746-0800200c9a66", c!"03.00.003", c!"platinum content"⟩),
  (c!"c35265a9-fd3e-468c-af8e-f4e020c38fc0", ⟨c!"71fc82ec-9eb9-424a-bc45-053a844c8af9", c!"93a60a57-a4c8-11da-a746-0800200c9a66", c!"03.00.003", c!"mass concentration, selenium"⟩),
  (c!"7e83fd10-c04d-4a80-8df2-a8bbcc268c4a", ⟨c!"71fc82ec-9eb9-424a-bc45-053a844c8af9", c!"93a60a57-a4c8-11da-a746-0800200c9a66", c!"03.00.003", c!"selenium content"⟩),
  (c!"4e0d51e1-8833-45e8-bd22-48292c8c93b8", ⟨c!"7eb51190-01f0-40a0-801d-b5c588272314", c!"93a60a57-a4c8-11da-a746-0800200c9a66", c!"03.00.003", c!"mass concentration, krypton"⟩),
  (c!"aaedfd5e-a9ce-4257-a015-93ef483fed8c", ⟨c!"7eb51190-01f0-40a0-801d-b5c588272314", c!"93a60a57-a4c8-11da-a746-0800200c9a66", c!"03.00.003", c!"krypton content"⟩),
  (c!"b142feef-d230-4376-aee7-919bbebed59a", ⟨c!"d58f03c0-feab-4e47-aef6-4394aecc72dd", c!"93a60a57-a4c8-11da-a746-0800200c9a66", c!"03.00.003", c!"mass concentration. lutetium"⟩),
  (c!"fbc58d8d-0a4c-4eb0-a14a-fafef222bafc", ⟨c!"d58f03c0-feab-4e47-aef6-4394aecc72dd", c!"93a60a57-a4c8-11da-a746-0800200c9a66", c!"03.00.003", c!"lutetium content"⟩),
  (c!"6b7d0b77-c97b-4a8a-b4c5-f70836484a84", ⟨c!"d7882bb5-cb4e-4ef6-84d8-1e1b75de022c", c!"93a60a57-a4c8-11da-a746-0800200c9a66", c!"03.00.003", c!"mass concentration, neon"⟩),
  (c!"fb2ccf7c-73c6-4d43-a3c7-26fda1423f18", ⟨c!"d7882bb5-cb4e-4ef6-84d8-1e1b75de022c", c!"93a60a57-a4c8-11da-a746-0800200c9a66", c!"03.00.003", c!"neon content"⟩),
  (c!"807a3833-37fa-4606-9023-25d4e9eb0158", ⟨c!"697fbcb6-b516-4c2f-a78e-5ec2ffaec4b3", c!"93a60a57-a4c8-11da-a746-0800200c9a66", c!"03.00.003", c!"mass concentration, caesium"⟩),
  (c!"4583f86d-51fa-4fda-9c75-7fba827532f5", ⟨c!"697fbcb6-b516-4c2f-a78e-5ec2ffaec4b3", c!"93a60a57-a4c8-11da-a746-0800200c9a66", c!"03.00.003", c!"caesium content"⟩)]

/-- A part of `pintToIlcdFp` below. -/
def pintToIlcdFp5 : List (Str × Ilcd) := [
  (c!"2382a305-44cb-479c-a43d-f759f7689a9d", ⟨c!"dccec68c-c1c9-42e4-9fa9-42dbb943082d", c!"93a60a57-a4c8-11da-a746-0800200c9a66", c!"03.00.003", c!"concentration, cadmium"⟩),
  (c!"1111ac7e-20df-4ab4-9e02-57821894372c", ⟨c!"dccec68c-c1c9-42e4-9fa9-42dbb943082d", c!"93a60a57-a4c8-11da-a746-0800200c9a66", c!"03.00.003", c!"mass concentration, cadmium"⟩),
  (c!"ad7781c7-5dc2-4421-b182-e1fd4cef7fa5", ⟨c!"dccec68c-c1c9-42e4-9fa9-42dbb943082d", c!"93a60a57-a4c8-11da-a746-0800200c9a66", c!"03.00.003", c!"cadmium content"⟩),
  (c!"edb5885b-2292-4889-9221-ab7012ea5595", ⟨c!"5c39e9a9-4bb5-42cd-b519-0db3a940a575", c!"93a60a57-a4c8-11da-a746-0800200c9a66", c!"03.00.003", c!"mass concentration, ruthenium"⟩),
  (c!"44454aa6-3e54-4bb3-850c-9011a7257985", ⟨c!"5c39e9a9-4bb5-42cd-b519-0db3a940a575", c!"93a60a57-a4c8-11da-a746-0800200c9a66", c!"03.00.003", c!"ruthenium content"⟩),
  (c!"5b7203d0-4a12-43e3-a2de-d9000584a5c6", ⟨c!"2ea4d465-87e3-4f85-81a0-2bd661639f4e", c!"93a60a57-a4c8-11da-a746-0800200c9a66", c!"03.00.003", c!"mass concentration, yttrium"⟩),
  (c!"72ca3df5-6d2a-4a64-9fdf-d976136e4167", ⟨c!"2ea4d465-87e3-4f85-81a0-2bd661639f4e", c!"93a60a57-a4c8-11da-a746-0800200c9a66", c!"03.00.003", c!"yttrium content"⟩),
  (c!"a3ca4324-b23e-489e-a799-b50ef9ed2e4e", ⟨c!"d07d61ac-df46-4e74-bd49-3260c7b5fb89", c!"93a60a57-a4c8-11da-a746-0800200c9a66", c!"03.00.003", c!"mass concentration, protactinium"⟩),
  (c!"30fd0072-a0d4-4b5b-ad3e-dbd50a227ba5", ⟨c!"d07d61ac-df46-4e74-bd49-3260c7b5fb89", c!"93a60a57-a4c8-11da-a746-0800200c9a66", c!"03.00.003", c!"protactinium content"⟩),
  (c!"8e73d3fb-bb81-4c42-bfa6-8be4ff13125d", ⟨c!"699b6a73-e8d5-4755-8d1d-b70de4b9efdd", c!"93a60a57-a4c8-11da-a746-0800200c9a66", c!"03.00.003", c!"mass concentration, phophorus"⟩),
  (c!"97f3bbfe-fa3a-4d05-9cb6-bb4b6379c5ef", ⟨c!"699b6a73-e8d5-4755-8d1d-b70de4b9efdd", c!"93a60a57-a4c8-11da-a746-0800200c9a66", c!"03.00.003", c!"phosphorus content"⟩),
  (c!"449f4414-9f9f-4b76-8bfb-f170052555ab", ⟨c!"699b6a73-e8d5-4755-8d1d-b70de4b9efdd", c!"93a60a57-a4c8-11da-a746-0800200c9a66", c!"03.00.003", c!"concentration, phosphorus"⟩),
  (c!"0f205308-d33a-430b-b3ec-b62bef311f2f", ⟨c!"699b6a73-e8d5-4755-8d1d-b70de4b9efdd", c!"93a60a57-a4c8-11da-a746-0800200c9a66", c!"03.00.003", c!"mass concentration, particulate phophorus"⟩),
  (c!"6a158827-67f6-4c5e-ba04-3da10718fc21", ⟨c!"d703ed04-22ca-4151-85ae-da1fcf54df68", c!"93a60a57-a4c8-11da-a746-0800200c9a66", c!"03.00.003", c!"mass concentration, niobium"⟩),
  (c!"d8135201-fa30-4332-a051-7eddb3f8f8ed", ⟨c!"d703ed04-22ca-4151-85ae-da1fcf54df68", c!"93a60a57-a4c8-11da-a746-0800200c9a66", c!"03.00.003", c!"niobium content"⟩),
  (c!"26ec2bdf-c4d7-4ed4-a751-5cfa97d2b26b", ⟨c!"61ec59a5-3816-4e5a-88c7-acf8a8b33d41", c!"93a60a57-a4c8-11da-a746-0800200c9a66", c!"03.00.003", c!"concentration, silver"⟩),
  (c!"dcdc6c7b-0b72-4174-bc90-f51ed66426d5", ⟨c!"61ec59a5-3816-4e5a-88c7-acf8a8b33d41", c!"93a60a57-a4c8-11da-a746-0800200c9a66", c!"03.00.003", c!"mass concentration, silver"⟩),
  (c!"56f09738-8225-4bdc-91d2-39ee6328f0ee", ⟨c!"61ec59a5-3816-4e5a-88c7-acf8a8b33d41", c!"93a60a57-a4c8-11da-a746-0800200c9a66", c!"03.00.003", c!"silver content"⟩),
  (c!"dfe0e5ee-314c-4fac-9a75-c96aa63ec3b5", ⟨c!"184c9c12-32fb-4252-a484-9952928b8473", c!"93a60a57-a4c8-11da-a746-0800200c9a66", c!"03.00.003", c!"concentration, indium"⟩),
  (c!"cbffa34c-c6de-4836-abfe-c6b94b99655a", ⟨c!"184c9c12-32fb-4252-a484-9952928b8473", c!"93a60a57-a4c8-11da-a746-0800200c9a66", c!"03.00.003", c!"mass concentration, indium"⟩)]

/-- A part of `pintToIlcdFp` below. -/
def pintToIlcdFp6 : List (Str × Ilcd) := [
  (c!"d0a2c761-50ab-4c1d-a37b-525409640a76", ⟨c!"184c9c12-32fb-4252-a484-9952928b8473", c!"93a60a57-a4c8-11da-a746-0800200c9a66", c!"03.00.003", c!"indium content"⟩),
  (c!"763a698f-54d7-4e2a-84a7-9cc8c0271b6a", ⟨c!"476dbccb-c1e5-4cdb-aa14-f4ef627c45ec", c!"93a60a57-a4c8-11da-a746-0800200c9a66", c!"03.00.003", c!"mass concentration, fluorine"⟩),
  (c!"1f3c2d02-f345-4df9-ba6a-88cdeaa67923", ⟨c!"476dbccb-c1e5-4cdb-aa14-f4ef627c45ec", c!"93a60a57-a4c8-11da-a746-0800200c9a66", c!"03.00.003", c!"fluorine content"⟩),
  (c!"9210d4a4-402c-475a-b354-94a8263632eb", ⟨c!"1e6e8252-dae9-4b4a-866c-c6c3a5e810a1", c!"93a60a57-a4c8-11da-a746-0800200c9a66", c!"03.00.003", c!"mass concentration, thulium"⟩),
  (c!"fdafa860-c059-437e-838d-9d151b2067b3", ⟨c!"1e6e8252-dae9-4b4a-866c-c6c3a5e810a1", c!"93a60a57-a4c8-11da-a746-0800200c9a66", c!"03.00.003", c!"thulium content"⟩),
  (c!"77154d2e-4b05-48f2-a89a-789acd170497", ⟨c!"d6b6a36c-58b3-48c7-b723-392a6df4754f", c!"93a60a57-a4c8-11da-a746-0800200c9a66", c!"03.00.003", c!"mass concentration, aluminium"⟩),
  (c!"e9688cbc-7400-457a-a936-5ab123ea326c", ⟨c!"d6b6a36c-58b3-48c7-b723-392a6df4754f", c!"93a60a57-a4c8-11da-a746-0800200c9a66", c!"03.00.003", c!"aluminium content"⟩),
  (c!"2dd01d14-3b27-4a66-9308-2ab96e6bcbd0", ⟨c!"24a07e87-aa12-4f9c-8c40-580e9bf7a2f2", c!"93a60a57-a4c8-11da-a746-0800200c9a66", c!"03.00.003", c!"mass concentration, zirconium"⟩),
  (c!"da9aed81-4e0a-4a15-9d5e-27020d826a01", ⟨c!"24a07e87-aa12-4f9c-8c40-580e9bf7a2f2", c!"93a60a57-a4c8-11da-a746-0800200c9a66", c!"03.00.003", c!"zirconium content"⟩),
  (c!"6d9e1462-80e3-4f10-b3f4-71febd6f1168", ⟨c!"7ec8d70e-4ffc-4024-86b7-6141cc0a2bf5", c!"93a60a57-a4c8-11da-a746-0800200c9a66", c!"03.00.003", c!"water in wet mass"⟩),
  (c!"a9358458-9724-4f03-b622-106eda248916", ⟨c!"7ec8d70e-4ffc-4024-86b7-6141cc0a2bf5", c!"93a60a57-a4c8-11da-a746-0800200c9a66", c!"03.00.003", c!"water content"⟩),
  (c!"26e0e131-cb29-4602-9cce-ecaaf1ffd8d4", ⟨c!"827934c0-561e-402c-82f2-f04765d180e5", c!"93a60a57-a4c8-11da-a746-0800200c9a66", c!"03.00.003", c!"mass concentration, bismuth"⟩),
  (c!"e66d61f6-8287-4cf1-bb0c-f978ee5e34b3", ⟨c!"827934c0-561e-402c-82f2-f04765d180e5", c!"93a60a57-a4c8-11da-a746-0800200c9a66", c!"03.00.003", c!"bismuth content"⟩),
  (c!"d21c7c5c-b2c2-43ae-8575-c377cc0b0495", ⟨c!"83040211-0076-4862-b172-79ce62b71187", c!"93a60a57-a4c8-11da-a746-0800200c9a66", c!"03.00.003", c!"mass concentration, beryllium"⟩),
  (c!"bf4d71d9-4301-4939-8a9d-36d8811b7db0", ⟨c!"83040211-0076-4862-b172-79ce62b71187", c!"93a60a57-a4c8-11da-a746-0800200c9a66", c!"03.00.003", c!"beryllium content"⟩),
  (c!"1a3f7490-7944-4d5a-ae87-4133cd0f6eec", ⟨c!"78b712c9-7f07-467f-b085-efee6067871b", c!"93a60a57-a4c8-11da-a746-0800200c9a66", c!"03.00.003", c!"mass concentration, osmium"⟩),
  (c!"bbf35356-1757-4287-a72c-ae2bb1753731", ⟨c!"78b712c9-7f07-467f-b085-efee6067871b", c!"93a60a57-a4c8-11da-a746-0800200c9a66", c!"03.00.003", c!"osmium content"⟩),
  (c!"c0dd146d-4b11-4b59-bd42-01ab280d6342", ⟨c!"85aa9476-64fb-4c86-bc01-0c656b479cb8", c!"93a60a57-a4c8-11da-a746-0800200c9a66", c!"03.00.003", c!"mass concentration, lithium"⟩),
  (c!"db0b4bbf-fd26-4ba2-b9de-0fd47476304f", ⟨c!"85aa9476-64fb-4c86-bc01-0c656b479cb8", c!"93a60a57-a4c8-11da-a746-0800200c9a66", c!"03.00.003", c!"lithium content"⟩),
  (c!"ff888459-10c3-4700-afce-3a024aaf89cf", ⟨c!"11f31f00-f6fa-4ef0-a9e3-5bd37199dd20", c!"93a60a57-a4c8-11da-a746-0800200c9a66", c!"03.00.003", c!"mass concentration, tin"⟩)]

/-- A part of `pintToIlcdFp` below. -/
def pintToIlcdFp7 : List (Str × Ilcd) := [
  (c!"d8551abf-da96-4429-846b-0973136b7d48", ⟨c!"11f31f00-f6fa-4ef0-a9e3-5bd37199dd20", c!"93a60a57-a4c8-11da-a746-0800200c9a66", c!"03.00.003", c!"tin content"⟩),
  (c!"b41681b0-87c1-4333-8eae-045ec68fe0c2", ⟨c!"25c2946d-2b1f-4245-b2aa-80c037912665", c!"93a60a57-a4c8-11da-a746-0800200c9a66", c!"03.00.003", c!"mass concentration, thorium"⟩),
  (c!"b181bebd-539c-49bc-810e-9a443060afbc", ⟨c!"25c2946d-2b1f-4245-b2aa-80c037912665", c!"93a60a57-a4c8-11da-a746-0800200c9a66", c!"03.00.003", c!"thorium content"⟩),
  (c!"3a0030f4-0585-487f-84fb-c6f3fa283ade", ⟨c!"f18a0b1c-59ec-4c76-ae20-bc6c522547b3", c!"93a60a57-a4c8-11da-a746-0800200c9a66", c!"03.00.003", c!"mass concentration, tellurium"⟩),
  (c!"8aaa7771-015a-4c28-8291-afa3342dbfbe", ⟨c!"f18a0b1c-59ec-4c76-ae20-bc6c522547b3", c!"93a60a57-a4c8-11da-a746-0800200c9a66", c!"03.00.003", c!"tellurium content"⟩),
  (c!"70da437b-65cd-498b-a980-7a6b8bc2f525", ⟨c!"f33b22c4-e0e7-4fa6-ae2b-246ecb0a16eb", c!"93a60a57-a4c8-11da-a746-0800200c9a66", c!"03.00.003", c!"concentration, nickel"⟩),
  (c!"8b574e85-ff07-46bf-a753-f1271299dcf7", ⟨c!"f33b22c4-e0e7-4fa6-ae2b-246ecb0a16eb", c!"93a60a57-a4c8-11da-a746-0800200c9a66", c!"03.00.003", c!"mass concentration, nickel"⟩),
  (c!"f767b36f-62bf-4458-b694-ecbefd2ab970", ⟨c!"f33b22c4-e0e7-4fa6-ae2b-246ecb0a16eb", c!"93a60a57-a4c8-11da-a746-0800200c9a66", c!"03.00.003", c!"nickel content"⟩),
  (c!"c0447419-7139-44fe-a855-ea71e2b78585", ⟨c!"77f40806-2c54-4050-97d3-d1b61eb4b0c9", c!"93a60a57-a4c8-11da-a746-0800200c9a66", c!"03.00.003", c!"mass concentration, boron"⟩),
  (c!"b86d456d-a1dc-4468-a20e-b6a3f4701e32", ⟨c!"77f40806-2c54-4050-97d3-d1b61eb4b0c9", c!"93a60a57-a4c8-11da-a746-0800200c9a66", c!"03.00.003", c!"boron content"⟩),
  (c!"fcc233d5-ea53-4b90-9e2c-5624032a4b95", ⟨c!"bd9b36ca-8240-464a-bba0-01c5210a5b66", c!"93a60a57-a4c8-11da-a746-0800200c9a66", c!"03.00.003", c!"concentration, magnesium"⟩),
  (c!"d26c0a60-86aa-41c8-80ee-3acabc4a5095", ⟨c!"bd9b36ca-8240-464a-bba0-01c5210a5b66", c!"93a60a57-a4c8-11da-a746-0800200c9a66", c!"03.00.003", c!"mass concentration, magnesium"⟩),
  (c!"8aedc313-f49b-42cd-8d54-fc877ec03017", ⟨c!"bd9b36ca-8240-464a-bba0-01c5210a5b66", c!"93a60a57-a4c8-11da-a746-0800200c9a66", c!"03.00.003", c!"magnesium content"⟩),
  (c!"7b656e1b-bc07-41cd-bad4-a5b51b6287da", ⟨c!"e1b01126-0456-41b5-a29a-d6bd5095b64b", c!"93a60a57-a4c8-11da-a746-0800200c9a66", c!"03.00.003", c!"mass concentration, sodium"⟩),
  (c!"d3c0b420-1906-478c-8812-acfe6bf40c2e", ⟨c!"e1b01126-0456-41b5-a29a-d6bd5095b64b", c!"93a60a57-a4c8-11da-a746-0800200c9a66", c!"03.00.003", c!"sodium content"⟩),
  (c!"cc72d858-3a21-481e-8013-55a53976ffc2", ⟨c!"0ac18236-1ef4-4d67-95c0-4aebfec7f470", c!"93a60a57-a4c8-11da-a746-0800200c9a66", c!"03.00.003", c!"mass concentration, cerium"⟩),
  (c!"ea0dd556-455f-4524-b594-785505f1c0af", ⟨c!"0ac18236-1ef4-4d67-95c0-4aebfec7f470", c!"93a60a57-a4c8-11da-a746-0800200c9a66", c!"03.00.003", c!"cerium content"⟩),
  (c!"d271dd60-df24-4dbe-b447-7f059810a0f3", ⟨c!"e57088b8-0313-45c4-b791-6fdfbb59a142", c!"93a60a57-a4c8-11da-a746-0800200c9a66", c!"03.00.003", c!"mass concentration, samarium"⟩),
  (c!"82728b89-48ab-4da6-9bad-faeb8ce02d1a", ⟨c!"e57088b8-0313-45c4-b791-6fdfbb59a142", c!"93a60a57-a4c8-11da-a746-0800200c9a66", c!"03.00.003", c!"samarium content"⟩),
  (c!"5ec6019b-0773-4119-9d96-ed9355eaad80", ⟨c!"d55035e1-5a9a-44c5-88ce-d20086ab7148", c!"93a60a57-a4c8-11da-a746-0800200c9a66", c!"03.00.003", c!"mass concentration, neodymium"⟩)]

/-- A part of `pintToIlcdFp` below. -/
def pintToIlcdFp8 : List (Str × Ilcd) := [
  (c!"a91695f7-22e8-4b39-bd05-56aacab09a87", ⟨c!"d55035e1-5a9a-44c5-88ce-d20086ab7148", c!"93a60a57-a4c8-11da-a746-0800200c9a66", c!"03.00.003", c!"neodymium content"⟩),
  (c!"0b686a86-c506-4ad3-81fd-c3f39f05247d", ⟨c!"7cc6f031-f747-49e0-9600-ce2a2fe5657e", c!"93a60a57-a4c8-11da-a746-0800200c9a66", c!"03.00.003", c!"mass concentration, vanadium"⟩),
  (c!"dba83ee6-9127-4c81-86c9-15e29987dcdf", ⟨c!"7cc6f031-f747-49e0-9600-ce2a2fe5657e", c!"93a60a57-a4c8-11da-a746-0800200c9a66", c!"03.00.003", c!"vanadium content"⟩),
  (c!"28841901-be10-4b4c-b077-228b4de6e7b1", ⟨c!"83c2eede-677e-43ec-98c8-1d801c7f1774", c!"93a60a57-a4c8-11da-a746-0800200c9a66", c!"03.00.003", c!"mass concentration, xenon"⟩),
  (c!"59d14f7c-d6ea-4770-af4a-aa3dd6538b98", ⟨c!"83c2eede-677e-43ec-98c8-1d801c7f1774", c!"93a60a57-a4c8-11da-a746-0800200c9a66", c!"03.00.003", c!"xenon content"⟩),
  (c!"6c113912-2ae5-4dea-99ea-1f0ebfe39c31", ⟨c!"33cf4d9a-bcbf-4fe4-926b-38f2c3e36278", c!"93a60a57-a4c8-11da-a746-0800200c9a66", c!"03.00.003", c!"mass concentration, tantalum"⟩),
  (c!"43e30a6f-82ee-4f81-b799-e835163c8dcd", ⟨c!"33cf4d9a-bcbf-4fe4-926b-38f2c3e36278", c!"93a60a57-a4c8-11da-a746-0800200c9a66", c!"03.00.003", c!"tantalum content"⟩),
  (c!"2584546f-187b-4a1d-b246-0af9d354b46b", ⟨c!"b1dd578a-f16a-4eaa-ae08-442aa2a1a2de", c!"93a60a57-a4c8-11da-a746-0800200c9a66", c!"03.00.003", c!"mass concentration, helium"⟩),
  (c!"22ca28a0-51e6-4f82-9ae7-b6c22a59abb9", ⟨c!"b1dd578a-f16a-4eaa-ae08-442aa2a1a2de", c!"93a60a57-a4c8-11da-a746-0800200c9a66", c!"03.00.003", c!"helium content"⟩),
  (c!"d717d3e6-7f87-4c07-b1af-9458e21efaa9", ⟨c!"1d85ab50-ed1e-4421-b3b8-c5197d858a0d", c!"93a60a57-a4c8-11da-a746-0800200c9a66", c!"03.00.003", c!"density argon"⟩),
  (c!"da1ed753-c185-4631-9cec-45d09fcec8f4", ⟨c!"1d85ab50-ed1e-4421-b3b8-c5197d858a0d", c!"93a60a57-a4c8-11da-a746-0800200c9a66", c!"03.00.003", c!"mass concentration, argon"⟩),
  (c!"cd5814c6-01ff-4fe8-b4bc-225084393eb2", ⟨c!"1d85ab50-ed1e-4421-b3b8-c5197d858a0d", c!"93a60a57-a4c8-11da-a746-0800200c9a66", c!"03.00.003", c!"argon content"⟩),
  (c!"effa47e4-3d54-4e54-8b92-223b790f544a", ⟨c!"a0f29f45-108a-4aef-8a66-aef07ed34913", c!"93a60a57-a4c8-11da-a746-0800200c9a66", c!"03.00.003", c!"concentration, iron"⟩),
  (c!"ebf21bca-b7cf-45d0-9d82-bfb80519a970", ⟨c!"a0f29f45-108a-4aef-8a66-aef07ed34913", c!"93a60a57-a4c8-11da-a746-0800200c9a66", c!"03.00.003", c!"mass concentration, iron"⟩),
  (c!"d8364dfc-5753-4585-bf50-4d42b126f72d", ⟨c!"a0f29f45-108a-4aef-8a66-aef07ed34913", c!"93a60a57-a4c8-11da-a746-0800200c9a66", c!"03.00.003", c!"iron content"⟩),
  (c!"d8d0d9e1-d98a-4adb-ad4d-de0bb2a1deb3", ⟨c!"e02ff80b-c3f1-4d9d-b33a-f8c3001c70b8", c!"93a60a57-a4c8-11da-a746-0800200c9a66", c!"03.00.003", c!"mass concentration, rhodium"⟩),
  (c!"92dbd49f-8cf0-4510-b9c0-6b90443b328e", ⟨c!"e02ff80b-c3f1-4d9d-b33a-f8c3001c70b8", c!"93a60a57-a4c8-11da-a746-0800200c9a66", c!"03.00.003", c!"rhodium content"⟩),
  (c!"630eb01c-d5ad-45b2-896f-9228a893e6d8", ⟨c!"e8b9419c-c36e-445f-a3a9-ace79156ac30", c!"93a60a57-a4c8-11da-a746-0800200c9a66", c!"03.00.003", c!"mass concentration, erbium"⟩),
  (c!"e092deec-37ab-4f20-ad74-1460544a9911", ⟨c!"e8b9419c-c36e-445f-a3a9-ace79156ac30", c!"93a60a57-a4c8-11da-a746-0800200c9a66", c!"03.00.003", c!"erbium content"⟩),
  (c!"253644d1-9ec6-4373-bda4-afbdd248d5b1", ⟨c!"7c367337-54f2-4fe9-8ee3-3f42681b0792", c!"93a60a57-a4c8-11da-a746-0800200c9a66", c!"03.00.003", c!"concentration, zinc"⟩)]

/-- A part of `pintToIlcdFp` below. -/
def pintToIlcdFp9 : List (Str × Ilcd) := [
  (c!"6cc518c8-4769-40df-b2cf-03f9fe00b759", ⟨c!"7c367337-54f2-4fe9-8ee3-3f42681b0792", c!"93a60a57-a4c8-11da-a746-0800200c9a66", c!"03.00.003", c!"mass concentration, zinc"⟩),
  (c!"33f96fe7-39da-47ca-837f-f2c311681d1b", ⟨c!"7c367337-54f2-4fe9-8ee3-3f42681b0792", c!"93a60a57-a4c8-11da-a746-0800200c9a66", c!"03.00.003", c!"zinc content"⟩),
  (c!"decbd998-dc69-4964-9f82-8b9d9ca93e91", ⟨c!"aaa95528-e05d-4eb4-85ff-a5445b580dcc", c!"93a60a57-a4c8-11da-a746-0800200c9a66", c!"03.00.003", c!"mass concentration, oxygen"⟩),
  (c!"dbf41b1b-c7b8-4d5e-b39c-f858eb868df5", ⟨c!"aaa95528-e05d-4eb4-85ff-a5445b580dcc", c!"93a60a57-a4c8-11da-a746-0800200c9a66", c!"03.00.003", c!"oxygen content"⟩),
  (c!"a4d1b0a4-a4ef-429e-9fab-6dd6ea142c37", ⟨c!"b8ef5a2b-ed75-4497-a061-1ecbbd79a380", c!"93a60a57-a4c8-11da-a746-0800200c9a66", c!"03.00.003", c!"mass concentration, uranium"⟩),
  (c!"6b093a42-84fe-41a1-8488-0fb444a5cf9d", ⟨c!"b8ef5a2b-ed75-4497-a061-1ecbbd79a380", c!"93a60a57-a4c8-11da-a746-0800200c9a66", c!"03.00.003", c!"uranium content"⟩),
  (c!"adafb091-8daa-4bc9-b302-98aa221ff337", ⟨c!"2651cd57-1c24-4b8e-856b-ddb63a3b267e", c!"93a60a57-a4c8-11da-a746-0800200c9a66", c!"03.00.003", c!"concentration, mercury"⟩),
  (c!"a102e6f8-ebc7-450b-a39b-794be96558b7", ⟨c!"2651cd57-1c24-4b8e-856b-ddb63a3b267e", c!"93a60a57-a4c8-11da-a746-0800200c9a66", c!"03.00.003", c!"mass concentration, mercury"⟩),
  (c!"2a256b0b-6003-4669-a3c1-1d3eba2de45e", ⟨c!"2651cd57-1c24-4b8e-856b-ddb63a3b267e", c!"93a60a57-a4c8-11da-a746-0800200c9a66", c!"03.00.003", c!"mercury content"⟩),
  (c!"2d99e421-b9bd-4e09-98e4-f09478190a9b", ⟨c!"b7be6dba-97f0-42f6-b173-e2c6b042fbe7", c!"93a60a57-a4c8-11da-a746-0800200c9a66", c!"03.00.003", c!"concentration, sulfur"⟩),
  (c!"8175120e-a5b7-4f19-afca-5620e9e4dd8b", ⟨c!"b7be6dba-97f0-42f6-b173-e2c6b042fbe7", c!"93a60a57-a4c8-11da-a746-0800200c9a66", c!"03.00.003", c!"mass concentration, particulate sulfur"⟩),
  (c!"7f3410da-b91e-40d8-9545-ab269ff66900", ⟨c!"b7be6dba-97f0-42f6-b173-e2c6b042fbe7", c!"93a60a57-a4c8-11da-a746-0800200c9a66", c!"03.00.003", c!"mass concentration, sulfur"⟩),
  (c!"f6c7ebbb-902a-412f-a55b-0743aea00238", ⟨c!"b7be6dba-97f0-42f6-b173-e2c6b042fbe7", c!"93a60a57-a4c8-11da-a746-0800200c9a66", c!"03.00.003", c!"sulfur content"⟩),
  (c!"e4504511-88b5-4b01-a537-e049f056668c", ⟨c!"d4f76a48-d1c9-4c49-a46e-b61feb974ac4", c!"93a60a57-a4c8-11da-a746-0800200c9a66", c!"03.00.003", c!"mass concentration, bromine"⟩),
  (c!"6b90d16b-f20b-4b53-abc2-763f9455dc05", ⟨c!"d4f76a48-d1c9-4c49-a46e-b61feb974ac4", c!"93a60a57-a4c8-11da-a746-0800200c9a66", c!"03.00.003", c!"bromine content"⟩),
  (c!"058d6d50-172b-4a8a-97da-0cee759eca7d", ⟨c!"825ef2f3-f706-4c47-8f8d-ee9ddbab3b43", c!"93a60a57-a4c8-11da-a746-0800200c9a66", c!"03.00.003", c!"mass concentration, tungsten"⟩),
  (c!"84916b80-bf93-4e20-9b7c-593aa9518d09", ⟨c!"825ef2f3-f706-4c47-8f8d-ee9ddbab3b43", c!"93a60a57-a4c8-11da-a746-0800200c9a66", c!"03.00.003", c!"tungsten content"⟩),
  (c!"3e1978a6-47f8-4e31-8a83-79053a0e715e", ⟨c!"fa94ba11-2720-441d-b432-a2774f3ab1ad", c!"93a60a57-a4c8-11da-a746-0800200c9a66", c!"03.00.003", c!"mass concentration, gold"⟩),
  (c!"ee301bc4-052a-40c2-a5d7-76fa6e429aa5", ⟨c!"fa94ba11-2720-441d-b432-a2774f3ab1ad", c!"93a60a57-a4c8-11da-a746-0800200c9a66", c!"03.00.003", c!"gold content"⟩),
  (c!"e38c9209-6934-4445-b180-675bcbd5ad7a", ⟨c!"6827435e-8ad9-44c1-b0b4-b26f321957b1", c!"93a60a57-a4c8-11da-a746-0800200c9a66", c!"03.00.003", c!"concentration, potassium"⟩)]

/-- A part of `pintToIlcdFp` below. -/
def pintToIlcdFp10 : List (Str × Ilcd) := [
  (c!"8b49eeb7-9caf-4101-b516-eb0aef30d530", ⟨c!"6827435e-8ad9-44c1-b0b4-b26f321957b1", c!"93a60a57-a4c8-11da-a746-0800200c9a66", c!"03.00.003", c!"mass concentration, potassium"⟩),
  (c!"ca949a93-0642-4d1d-83bf-52faf10f2329", ⟨c!"6827435e-8ad9-44c1-b0b4-b26f321957b1", c!"93a60a57-a4c8-11da-a746-0800200c9a66", c!"03.00.003", c!"potassium content"⟩),
  (c!"79baac3d-9e62-45ef-8f41-440dea32f11f", ⟨c!"b8a29b5f-1e7e-4f15-881f-e802e42551eb", c!"93a60a57-a4c8-11da-a746-0800200c9a66", c!"03.00.003", c!"mass concentration, thallium"⟩),
  (c!"608190bf-8f74-4f8e-8544-f25377accf4d", ⟨c!"b8a29b5f-1e7e-4f15-881f-e802e42551eb", c!"93a60a57-a4c8-11da-a746-0800200c9a66", c!"03.00.003", c!"thallium content"⟩),
  (c!"e9164ff3-fd2d-4050-895d-0e0a42317be2", ⟨c!"02f11c31-4bb8-41de-81fb-fb479f361eb9", c!"93a60a57-a4c8-11da-a746-0800200c9a66", c!"03.00.003", c!"mass concentration, iodine"⟩),
  (c!"b3026066-b632-4c47-a27e-c13f4a3489fb", ⟨c!"02f11c31-4bb8-41de-81fb-fb479f361eb9", c!"93a60a57-a4c8-11da-a746-0800200c9a66", c!"03.00.003", c!"iodine content"⟩),
  (c!"abc78955-bd5f-4b1a-9607-0448dd75ebf2", ⟨c!"282882cf-a5e5-4170-82dd-8e84da2724d2", c!"93a60a57-a4c8-11da-a746-0800200c9a66", c!"03.00.003", c!"mass concentration, titanium"⟩),
  (c!"e9fa11a1-1011-421d-aa34-0544d767a632", ⟨c!"282882cf-a5e5-4170-82dd-8e84da2724d2", c!"93a60a57-a4c8-11da-a746-0800200c9a66", c!"03.00.003", c!"titanium content"⟩),
  (c!"b321f120-4db7-4e7c-a196-82a231023052", ⟨c!"cefa9508-86b9-4fad-824e-bbf9d6fdd6f9", c!"93a60a57-a4c8-11da-a746-0800200c9a66", c!"03.00.003", c!"mass concentration, arsenic"⟩),
  (c!"30f0aa15-2d50-4f09-af94-683b6dd68adc", ⟨c!"cefa9508-86b9-4fad-824e-bbf9d6fdd6f9", c!"93a60a57-a4c8-11da-a746-0800200c9a66", c!"03.00.003", c!"arsenic content"⟩),
  (c!"98f985da-d0b2-4325-af0c-9e421a2ba950", ⟨c!"ab654e01-766b-411b-8902-cd6a9c40e55e", c!"93a60a57-a4c8-11da-a746-0800200c9a66", c!"03.00.003", c!"mass concentration, palladium"⟩),
  (c!"999af43a-1a83-4231-ba3c-600b1941b3a0", ⟨c!"ab654e01-766b-411b-8902-cd6a9c40e55e", c!"93a60a57-a4c8-11da-a746-0800200c9a66", c!"03.00.003", c!"palladium content"⟩),
  (c!"9a08745d-e89e-477c-81a9-2ea81a44547c", ⟨c!"0ab79a5f-7fd7-4d5d-be55-559292c958d3", c!"93a60a57-a4c8-11da-a746-0800200c9a66", c!"03.00.003", c!"concentration, copper"⟩),
  (c!"e7451d8a-77af-44e0-86cf-ccd17ac84509", ⟨c!"0ab79a5f-7fd7-4d5d-be55-559292c958d3", c!"93a60a57-a4c8-11da-a746-0800200c9a66", c!"03.00.003", c!"mass concentration, copper"⟩),
  (c!"0132d97c-5f19-4397-9197-59ab801b10cf", ⟨c!"0ab79a5f-7fd7-4d5d-be55-559292c958d3", c!"93a60a57-a4c8-11da-a746-0800200c9a66", c!"03.00.003", c!"copper content"⟩),
  (c!"aa897226-0a91-40e5-aa05-4bae3b9e4213", ⟨c!"92f2d417-544a-4fd1-bde7-25967ef93586", c!"93a60a57-a4c8-11da-a746-0800200c9a66", c!"03.00.003", c!"mass concentration, molybdenum"⟩),
  (c!"83f67a9e-bf78-4e0d-b1f0-5051a1fda9fe", ⟨c!"92f2d417-544a-4fd1-bde7-25967ef93586", c!"93a60a57-a4c8-11da-a746-0800200c9a66", c!"03.00.003", c!"molybdenum content"⟩),
  (c!"69394b67-d859-4887-a7a2-64dec0ecdbd8", ⟨c!"037f9009-8b06-470d-a190-21448f7921c7", c!"93a60a57-a4c8-11da-a746-0800200c9a66", c!"03.00.003", c!"concentration, lead"⟩),
  (c!"71bc04b9-abfe-4f30-ab8f-ba654c7ad296", ⟨c!"037f9009-8b06-470d-a190-21448f7921c7", c!"93a60a57-a4c8-11da-a746-0800200c9a66", c!"03.00.003", c!"mass concentration, lead"⟩),
  (c!"e5507d89-78ad-4746-900c-b9afa5a62ea6", ⟨c!"037f9009-8b06-470d-a190-21448f7921c7", c!"93a60a57-a4c8-11da-a746-0800200c9a66", c!"03.00.003", c!"lead content"⟩)]

/-- A part of `pintToIlcdFp` below. -/
def pintToIlcdFp11 : List (Str × Ilcd) := [
  (c!"291c5be3-dd62-4e12-a0bd-48c3e694169a", ⟨c!"935e0cbe-3369-4537-8019-4157cf929304", c!"93a60a57-a4c8-11da-a746-0800200c9a66", c!"03.00.003", c!"mass concentration, terbium"⟩),
  (c!"ff25f3c3-5f43-4ac0-bb13-d8ecc6fc7b75", ⟨c!"935e0cbe-3369-4537-8019-4157cf929304", c!"93a60a57-a4c8-11da-a746-0800200c9a66", c!"03.00.003", c!"terbium content"⟩),
  (c!"8d27623b-147c-44e8-93cc-2183eac22991", ⟨c!"5a2556bf-a9ec-4720-9253-d40f1de3c2b8", c!"93a60a57-a4c8-11da-a746-0800200c9a66", c!"03.00.003", c!"mass concentration, manganese"⟩),
  (c!"2bc683e4-3780-4f00-8c1d-fd53e05cfde7", ⟨c!"5a2556bf-a9ec-4720-9253-d40f1de3c2b8", c!"93a60a57-a4c8-11da-a746-0800200c9a66", c!"03.00.003", c!"manganese content"⟩),
  (c!"71ff1af9-6834-46e8-b392-e73cbe898dae", ⟨c!"0b12d18f-0c7c-44da-8c52-dc3278f917c7", c!"93a60a57-a4c8-11da-a746-0800200c9a66", c!"03.00.003", c!"mass concentration, ytterbium"⟩),
  (c!"65387d28-9b09-44d2-9908-663c18b740a3", ⟨c!"0b12d18f-0c7c-44da-8c52-dc3278f917c7", c!"93a60a57-a4c8-11da-a746-0800200c9a66", c!"03.00.003", c!"ytterbium content"⟩),
  (c!"ed62dbf5-82e7-4432-ac6a-9be3172c41fd", ⟨c!"e4225227-7855-41ce-ba57-a5314fdcdcf1", c!"93a60a57-a4c8-11da-a746-0800200c9a66", c!"03.00.003", c!"mass concentration, gadolinium"⟩),
  (c!"f576f1a0-d669-4063-9309-82c4af778bb4", ⟨c!"e4225227-7855-41ce-ba57-a5314fdcdcf1", c!"93a60a57-a4c8-11da-a746-0800200c9a66", c!"03.00.003", c!"gadolinium content"⟩),
  (c!"67065577-4705-4ece-a892-6dd1d7ecd1e5", ⟨c!"607a33e0-28ed-42f8-ac8c-66f0c9700e56", c!"93a60a57-a4c8-11da-a746-0800200c9a66", c!"03.00.003", c!"mass concentration, silicon"⟩),
  (c!"dd7e15dc-c438-43f7-9c0d-d0a627163cf1", ⟨c!"607a33e0-28ed-42f8-ac8c-66f0c9700e56", c!"93a60a57-a4c8-11da-a746-0800200c9a66", c!"03.00.003", c!"silicon content"⟩),
  (c!"e629f248-28bc-40c8-a7e8-f1c216e7eb1d", ⟨c!"98eec5a0-44db-411a-a502-95139090bc61", c!"93a60a57-a4c8-11da-a746-0800200c9a66", c!"03.00.003", c!"mass concentration, iridium"⟩),
  (c!"0650a63d-be1c-49b6-94c5-d0dc2acc35d6", ⟨c!"98eec5a0-44db-411a-a502-95139090bc61", c!"93a60a57-a4c8-11da-a746-0800200c9a66", c!"03.00.003", c!"iridium content"⟩),
  (c!"b3fdadf7-9e1d-42bd-b36c-1744c7565539", ⟨c!"b3f0f892-c5a3-4c66-a432-c09e3d1e9bd6", c!"59f191d6-5dd3-4553-af88-1a32accfe308", c!"03.00.003", c!"lifetime capacity [kg*day]"⟩),
  (c!"46971dec-a716-4891-a5b7-5bebce5f3cdf", ⟨c!"838aaa20-0117-11db-92e3-0800200c9a66", c!"838aaa21-0117-11db-92e3-0800200c9a66", c!"03.00.000", c!"lifetime capacity [metric ton*km]"⟩),
  (c!"38583c32-c20b-4553-9152-b14b0bee1e61", ⟨c!"93a60a56-a3c8-11da-a746-0800200b9a66", c!"93a60a57-a4c8-11da-a746-0800200c9a66", c!"03.00.003", c!"lifetime capacity [kg]"⟩),
  (c!"aefe9fab-ed23-4060-a35d-d24d5281926c", ⟨c!"93a60a56-a3c8-22da-a746-0800200c9a66", c!"93a60a57-a3c8-12da-a746-0800200c9a66", c!"03.00.003", c!"lifetime capacity [l]"⟩),
  (c!"93bfda45-49f5-44bd-beb0-91b38dde4035", ⟨c!"c0447923-0e60-4b3c-97c2-a86dddd9eea5", c!"af638906-3ec7-4314-8de7-f76039f2dd01", c!"03.00.000", c!"lifetime capacity [h]"⟩),
  (c!"ec1f2209-1f53-40d5-bc53-67f388c82f5a", ⟨c!"93a60a56-a3c8-11da-a746-0800200c9a66", c!"93a60a57-a3c8-11da-a746-0800200c9a66", c!"03.00.003", c!"lifetime capacity [kWh]"⟩),
  (c!"11d072f8-37fc-41c2-80b2-ebba4f301b49", ⟨c!"93a60a56-a3c8-11da-a746-0800200c9a66", c!"93a60a57-a3c8-11da-a746-0800200c9a66", c!"03.00.003", c!"lifetime capacity [MJ]"⟩),
  (c!"a01597eb-34e2-4057-a7c7-e27bfdca34d1", ⟨c!"93a60a56-a3c8-22da-a746-0800200c9a66", c!"93a60a57-a3c8-12da-a746-0800200c9a66", c!"03.00.003", c!"lifetime capacity in m3"⟩)]

/-- A part of `pintToIlcdFp` below. -/
def pintToIlcdFp12 : List (Str × Ilcd) := [
  (c!"5b66c906-de94-4a06-9037-498de5498f82", ⟨c!"01846770-4cfe-4a25-8ad9-919d8d378345", c!"5beb6eed-33a9-47b8-9ede-1dfe8f679159", c!"03.00.004", c!"lifetime capacity"⟩),
  (c!"350b57a1-2b58-49e8-96bd-c9a4be6b4625", ⟨c!"01846770-4cfe-4a25-8ad9-919d8d378345", c!"5beb6eed-33a9-47b8-9ede-1dfe8f679159", c!"03.00.004", c!"lifetime capacity [unit]"⟩),
  (c!"964f8b50-ce16-4364-835a-a3db5fb760b0", ⟨c!"c0447923-0e60-4b3c-97c2-a86dddd9eea5", c!"af638906-3ec7-4314-8de7-f76039f2dd01", c!"03.00.000", c!"lifetime"⟩)]

/-- `pint_to_ilcd_fp`, units.py:162-387: from the hash of a dimension, or the identifier of a property of EcoSpold2, to a flow property. -/
def pintToIlcdFp : List (Str × Ilcd) :=
  pintToIlcdFp1 ++ pintToIlcdFp2 ++ pintToIlcdFp3 ++ pintToIlcdFp4 ++ pintToIlcdFp5 ++ pintToIlcdFp6 ++ pintToIlcdFp7 ++ pintToIlcdFp8 ++ pintToIlcdFp9 ++ pintToIlcdFp10 ++ pintToIlcdFp11 ++ pintToIlcdFp12

/-- `ilcd_to_ecs2_un`, units.py:392-415: from a flow property to the identifier and the name of its unit in EcoSpold2. -/
def ilcdToEcsUnit : List (Str × (Str × Str)) := [
  (c!"1acf7c0f-aa9d-4022-a4b7-fe0b54ea0b91", (c!"329b50e2-c594-39e9-953c-04c61d81d61e", c!"Items*a")),
  (c!"01846770-4cfe-4a25-8ad9-919d8d378345", (c!"5b972631-34e3-4db7-a615-f6931770a0cb", c!"unit")),
  (c!"93a60a56-a3c8-11da-a746-0800200c9a66", (c!"980b811e-3905-4797-82a5-173f5568bc7e", c!"MJ")),
  (c!"93a60a56-a3c8-14da-a746-0800200c9a66", (c!"980b811e-3905-4797-82a5-173f5568bc7e", c!"MJ")),
  (c!"93a60a56-a3c8-22da-a746-0800200c9a66", (c!"de5b3c87-0e35-4fb0-9765-4f3ba34c99e5", c!"m3")),
  (c!"838aaa20-0117-11db-92e3-0800200c9a66", (c!"2f4daad7-5331-4f14-930c-d8bca924557d", c!"metric ton*km")),
  (c!"838aaa23-0117-11db-92e3-0800200c9a66", (c!"f2aaa4ba-fb58-49a7-a552-e7f64366f379", c!"m")),
  (c!"1cc347a0-3bd1-46db-a308-2707c68d2351", (c!"0e6f38bc-51be-4382-802d-1f389a88e589", c!"person*km")),
  (c!"93a60a56-a3c8-17da-a746-0800200c9a66", (c!"4923348e-591b-4772-b224-d19df86f04c9", c!"kBq")),
  (c!"93a60a56-a3c8-19da-a746-0800200c9a66", (c!"1017f68a-f818-4f9d-a34d-a31e7386f628", c!"m2")),
  (c!"93a60a56-a3c8-21da-a746-0800200c9a66", (c!"eb955b7c-7bed-401f-9c76-5db716ca3640", c!"m2*year")),
  (c!"441238a3-ba09-46ec-b35b-c30cfba746d1", (c!"481b9712-c417-44f1-bfba-38d58088173c", c!"m3*year")),
  (c!"93a60a56-a3c8-11da-a746-0800200b9a66", (c!"487df68b-4994-4027-8fdc-a4dc298257b7", c!"kg")),
  (c!"c0447923-0e60-4b3c-97c2-a86dddd9eea5", (c!"05af3809-c874-4611-a6e9-6c296385ec5d", c!"day")),
  (c!"e07b4169-bd86-4337-8fa6-1f76916475bf", (c!"8266bd67-ebd3-4d31-b972-eee3cf0da36f", c!"m*year")),
  (c!"f170abd3-f010-45f4-8e7c-9871a5c0421b", (c!"ca2f7f9a-ae4e-3c80-9388-b7bc26a8bf4d", c!"mol")),
  (c!"371b6515-6488-399b-9364-b9125dcf5ef2", (c!"ff8ed45d-bbfb-4531-8c7b-9b95e52bd41d", c!"m3*km")),
  (c!"specific_dimensionless", (c!"ef6ecb4d-863b-4cee-adb4-95076bded0a1", c!"dimensionless")),
  (c!"67b63204-ef91-44b2-a927-2f4ead1fae17", (c!"7b75baf0-cbee-45e6-bf66-af119da06553", c!"EUR2005")),
  (c!"b3f0f892-c5a3-4c66-a432-c09e3d1e9bd6", (c!"241450a3-3497-4648-8c68-e44d04f64ac7", c!"kg*day")),
  (c!"93a60a56-a3c8-13da-a746-0800200c9a66", (c!"de5b3c87-0e35-4fb0-9765-4f3ba34c99e5", c!"m3"))]

/-- A part of `ilcdToEcsFp` below. -/
def ilcdToEcsFp1 : List (Str × Ecs) := [
  (c!"67b63204-ef91-44b2-a927-2f4ead1fae17", ⟨c!"7b75baf0-cbee-45e6-bf66-af119da06553", c!"EUR2005", c!"38f94dd1-d5aa-41b8-b182-c0c42985d9dc", c!"price", none, none⟩),
  (c!"9b784a67-fbb1-4ad2-8774-30c39643b844", ⟨c!"980b811e-3905-4797-82a5-173f5568bc7e", c!"MJ", c!"48c987bb-3144-4872-b5c7-b1389c40be25", c!"heating value, net", none, none⟩),
  (c!"93a60a56-a3c8-14da-a746-0800200c9a66", ⟨c!"980b811e-3905-4797-82a5-173f5568bc7e", c!"MJ", c!"d61b8768-8ef6-4a99-ae16-9e51f24ad5b5", c!"heating value, gross", none, none⟩),
  (c!"93a60a56-a3c8-11da-a746-0800200c9a66", ⟨c!"980b811e-3905-4797-82a5-173f5568bc7e", c!"MJ", c!"48c987bb-3144-4872-b5c7-b1389c40be25", c!"heating value, net", none, none⟩),
  (c!"f2149ae0-b105-4299-b1f1-cf1fd1577867", ⟨c!"577e242a-461f-44a7-922c-d8e1c3d2bf45", c!"dimensionless", c!"e1d2c19b-3a97-4f52-a83f-fe88400452c2", c!"chromium content", some (c!"ed229b01-1b3f-4754-8871-5e88a83f3725", c!"concentration, chromium"), some (c!"bca4bb32-f701-46bb-ba1e-bad477c19f7f", c!"mass concentration, chromium")⟩),
  (c!"ac557972-7563-49fb-8461-29a4fe8600b7", ⟨c!"577e242a-461f-44a7-922c-d8e1c3d2bf45", c!"dimensionless", c!"a17f5864-6177-4619-82c5-3426c8c64e7d", c!"gallium content", none, some (c!"35d16e49-9e29-4e1d-ac22-ea7f84fb76e1", c!"mass concentration, gallium")⟩),
  (c!"b1192e5a-4a70-4fd7-89a2-6b798c7ed3a7", ⟨c!"577e242a-461f-44a7-922c-d8e1c3d2bf45", c!"dimensionless", c!"66e996b5-5f7b-449f-8893-0b787af21d7e", c!"cobalt content", none, some (c!"2f7030b9-bafc-4b43-8504-deb8b5044130", c!"mass concentration, cobalt")⟩),
  (c!"a5278d68-2936-477b-b9de-7ad2d66422ec", ⟨c!"577e242a-461f-44a7-922c-d8e1c3d2bf45", c!"dimensionless", c!"995265a2-f2cb-4c12-a961-766eb34392b9", c!"strontium content", none, some (c!"d574cc22-07f2-4202-b564-1116ab197692", c!"mass concentration, strontium")⟩),
  (c!"dd77d131-c2ee-4d5a-b5d3-f7aa981ae305", ⟨c!"577e242a-461f-44a7-922c-d8e1c3d2bf45", c!"dimensionless", c!"35d2e0b2-eca5-4897-a6af-b6d2e61a9079", c!"scandium content", none, some (c!"1325d7f9-2fe2-4226-9304-ad9e5371e08f", c!"mass concentration, scandium")⟩),
  (c!"435e1d0e-e36e-4d4a-9cd1-7fd2c135da61", ⟨c!"577e242a-461f-44a7-922c-d8e1c3d2bf45", c!"dimensionless", c!"4054bfa7-dfcb-452e-b1dd-810b9e981506", c!"antimony content", none, some (c!"3759d833-560a-4dbb-949e-afc63c0ade26", c!"mass concentration, antimony")⟩),
  (c!"c2a5d679-93be-44a1-b82f-da986e622ab9", ⟨c!"577e242a-461f-44a7-922c-d8e1c3d2bf45", c!"dimensionless", c!"0b27405b-3e4d-45aa-bb5c-3c52d2b04e0e", c!"europium content", none, some (c!"a7e81e5c-d3b9-421c-bf6f-7cafcf911ab7", c!"mass concentration, europium")⟩),
  (c!"7eb6e3cb-0c12-4216-99b5-2032906d42ca", ⟨c!"577e242a-461f-44a7-922c-d8e1c3d2bf45", c!"dimensionless", c!"94b2be61-35f2-40fb-b9ab-636ae5a0415b", c!"lanthanum content", none, some (c!"d33e6732-d2f8-4441-ba03-e39d4a1228a5", c!"mass concentration, lanthanum")⟩),
  (c!"fec15e58-109a-4775-bc6f-72ca0b9b3cee", ⟨c!"577e242a-461f-44a7-922c-d8e1c3d2bf45", c!"dimensionless", c!"a301a838-7975-4d89-9e74-8eb77ad03cd1", c!"carbon content", none, some (c!"a301a838-7975-4d89-9e74-8eb77ad03cd1", c!"mass concentration, carbone dioxide")⟩),
  (c!"64b8e725-b0ba-4837-abb9-62dc0e7b9f6f", ⟨c!"577e242a-461f-44a7-922c-d8e1c3d2bf45", c!"dimensionless", c!"c74c3729-e577-4081-b572-a283d2561a75", c!"carbon content, fossil", none, none⟩),
  (c!"62e503ce-544a-4599-b2ad-bcea15a7bf20", ⟨c!"577e242a-461f-44a7-922c-d8e1c3d2bf45", c!"dimensionless", c!"6393c14b-db78-445d-a47b-c0cb866a1b25", c!"carbon content, non-fossil", none, none⟩),
  (c!"b539c404-ce19-43fb-ba14-6a1bdd46d8be", ⟨c!"577e242a-461f-44a7-922c-d8e1c3d2bf45", c!"dimensionless", c!"4fb17587-2c03-4b4e-b38b-867cfd4bfae8", c!"praseodymium content", none, some (c!"1ced5983-2a7b-49af-b6cd-ad4ebaafba89", c!"mass concentration, praseodymium")⟩),
  (c!"76d611d0-a0a5-43d5-b391-a4e7ec463052", ⟨c!"577e242a-461f-44a7-922c-d8e1c3d2bf45", c!"dimensionless", c!"f9da385d-5b1b-4548-826c-0bf5892a9fd9", c!"calcium content", some (c!"cea619b8-1a76-4680-8b55-cdf682a3b32a", c!"concentration, calcium"), some (c!"ddbab0d1-b156-41bc-98e5-fb680285d7cd", c!"mass concentration, calcium")⟩),
  (c!"984505b9-8536-4e31-a312-0d1a3788f009", ⟨c!"577e242a-461f-44a7-922c-d8e1c3d2bf45", c!"dimensionless", c!"66d4c921-658a-4ba0-b190-c6e09e57d74a", c!"chlorine content", none, some (c!"468e50e8-1960-4eba-bc1a-a9938a301694", c!"mass concentration, chlorine")⟩),
  (c!"3da87ad0-733e-4ca9-b234-75ef52ca2a2d", ⟨c!"577e242a-461f-44a7-922c-d8e1c3d2bf45", c!"dimensionless", c!"86937b4e-c531-4ce5-b65e-ce0d17d3ca27", c!"holmium content", none, some (c!"f0e05731-4b64-4a8a-a216-a7ad908d76bc", c!"mass concentration, holmium")⟩),
  (c!"085af809-5dc6-4920-aaa1-4ac493ae4af8", ⟨c!"577e242a-461f-44a7-922c-d8e1c3d2bf45", c!"dimensionless", c!"f53a5dbc-3bd3-4570-adff-b00790ea3ffc", c!"nitrogen content", some (c!"cf66b969-7413-4ee7-aaf1-8a3b47904836", c!"concentration, nitrogen"), some (c!"f04a971d-f503-4ca0-b2b1-0ecd2e53ea61", c!"mass concentration, nitrogen")⟩)]

/-- A part of `ilcdToEcsFp` below. -/
def ilcdToEcsFp2 : List (Str × Ecs) := [
  (c!"2e4695ff-d6a5-42c2-9816-6dbd6c859707", ⟨c!"577e242a-461f-44a7-922c-d8e1c3d2bf45", c!"dimensionless", c!"8daf1327-bd94-4903-8e7b-5fe7731a259b", c!"radium content", none, some (c!"1ae79861-a8a8-4118-aa6b-eb93351f315b", c!"mass concentration, radium")⟩),
  (c!"f3e1017d-1aa3-4763-b563-9494858e1ec7", ⟨c!"577e242a-461f-44a7-922c-d8e1c3d2bf45", c!"dimensionless", c!"2d23d1bb-e137-4ade-83fc-fbd0421e6cd5", c!"hydrogen content", none, some (c!"40a28310-9574-4867-88fb-623fa7ed1fa3", c!"mass concentration, hydrogen")⟩),
  (c!"078ecf46-26d6-47e3-8128-fcced884d1cd", ⟨c!"577e242a-461f-44a7-922c-d8e1c3d2bf45", c!"dimensionless", c!"fe9f0d92-ecdf-4e72-bd20-fadd3b6175bf", c!"germanium content", none, some (c!"76b0b954-ae61-4ac8-a585-700724fd53a6", c!"mass concentration, germanium")⟩),
  (c!"0bb4f3ac-2944-4263-8587-ea6eac2d24ac", ⟨c!"577e242a-461f-44a7-922c-d8e1c3d2bf45", c!"dimensionless", c!"48b2521b-63f6-4121-9c3f-8edef7b31fc5", c!"rhenium content", none, some (c!"cf6fc65c-b941-4211-89c8-ec3aec00b076", c!"mass concentration, rhenium")⟩),
  (c!"5db5be2d-8df6-432b-ab3d-ffde49d3fe7f", ⟨c!"577e242a-461f-44a7-922c-d8e1c3d2bf45", c!"dimensionless", c!"1dcfb203-7830-40b2-878d-13fc02a74051", c!"barium content", none, some (c!"33976f6b-2575-4410-8f60-d421bdf3e554", c!"mass concentration, barium")⟩),
  (c!"9bb58775-7ba8-41a7-8818-f75af4f5fe39", ⟨c!"577e242a-461f-44a7-922c-d8e1c3d2bf45", c!"dimensionless", c!"832bb926-0c7d-4b16-bf36-fc69665afe8b", c!"platinum content", none, some (c!"9adea776-5feb-432f-8f16-34d78ed99306", c!"mass concentration, platinum")⟩),
  (c!"71fc82ec-9eb9-424a-bc45-053a844c8af9", ⟨c!"577e242a-461f-44a7-922c-d8e1c3d2bf45", c!"dimensionless", c!"7e83fd10-c04d-4a80-8df2-a8bbcc268c4a", c!"selenium content", none, some (c!"c35265a9-fd3e-468c-af8e-f4e020c38fc0", c!"mass concentration, selenium")⟩),
  (c!"7eb51190-01f0-40a0-801d-b5c588272314", ⟨c!"577e242a-461f-44a7-922c-d8e1c3d2bf45", c!"dimensionless", c!"aaedfd5e-a9ce-4257-a015-93ef483fed8c", c!"krypton content", none, some (c!"4e0d51e1-8833-45e8-bd22-48292c8c93b8", c!"mass concentration, krypton")⟩),
  (c!"d58f03c0-feab-4e47-aef6-4394aecc72dd", ⟨c!"577e242a-461f-44a7-922c-d8e1c3d2bf45", c!"dimensionless", c!"fbc58d8d-0a4c-4eb0-a14a-fafef222bafc", c!"lutetium content", none, some (c!"b142feef-d230-4376-aee7-919bbebed59a", c!"mass concentration, lutetium")⟩),
  (c!"d7882bb5-cb4e-4ef6-84d8-1e1b75de022c", ⟨c!"577e242a-461f-44a7-922c-d8e1c3d2bf45", c!"dimensionless", c!"fb2ccf7c-73c6-4d43-a3c7-26fda1423f18", c!"neon content", none, some (c!"6b7d0b77-c97b-4a8a-b4c5-f70836484a84", c!"mass concentration, neon")⟩),
  (c!"697fbcb6-b516-4c2f-a78e-5ec2ffaec4b3", ⟨c!"577e242a-461f-44a7-922c-d8e1c3d2bf45", c!"dimensionless", c!"4583f86d-51fa-4fda-9c75-7fba827532f5", c!"caesium content", none, some (c!"807a3833-37fa-4606-9023-25d4e9eb0158", c!"mass concentration, caesium")⟩),
  (c!"dccec68c-c1c9-42e4-9fa9-42dbb943082d", ⟨c!"577e242a-461f-44a7-922c-d8e1c3d2bf45", c!"dimensionless", c!"ad7781c7-5dc2-4421-b182-e1fd4cef7fa5", c!"cadmium content", some (c!"2382a305-44cb-479c-a43d-f759f7689a9d", c!"concentration, cadmium"), some (c!"1111ac7e-20df-4ab4-9e02-57821894372c", c!"mass concentration, cadmium")⟩),
  (c!"5c39e9a9-4bb5-42cd-b519-0db3a940a575", ⟨c!"577e242a-461f-44a7-922c-d8e1c3d2bf45", c!"dimensionless", c!"44454aa6-3e54-4bb3-850c-9011a7257985", c!"ruthenium content", none, some (c!"edb5885b-2292-4889-9221-ab7012ea5595", c!"mass concentration, ruthenium")⟩),
  (c!"2ea4d465-87e3-4f85-81a0-2bd661639f4e", ⟨c!"577e242a-461f-44a7-922c-d8e1c3d2bf45", c!"dimensionless", c!"72ca3df5-6d2a-4a64-9fdf-d976136e4167", c!"yttrium content", none, some (c!"5b7203d0-4a12-43e3-a2de-d9000584a5c6", c!"mass concentration, yttrium")⟩),
  (c!"d07d61ac-df46-4e74-bd49-3260c7b5fb89", ⟨c!"577e242a-461f-44a7-922c-d8e1c3d2bf45", c!"dimensionless", c!"30fd0072-a0d4-4b5b-ad3e-dbd50a227ba5", c!"protactinium content", none, some (c!"a3ca4324-b23e-489e-a799-b50ef9ed2e4e", c!"mass concentration, protactinium")⟩),
  (c!"699b6a73-e8d5-4755-8d1d-b70de4b9efdd", ⟨c!"577e242a-461f-44a7-922c-d8e1c3d2bf45", c!"dimensionless", c!"97f3bbfe-fa3a-4d05-9cb6-bb4b6379c5ef", c!"phosphorus content", some (c!"449f4414-9f9f-4b76-8bfb-f170052555ab", c!"concentration, phophorus"), some (c!"8e73d3fb-bb81-4c42-bfa6-8be4ff13125d", c!"mass concentration, phophorus")⟩),
  (c!"d703ed04-22ca-4151-85ae-da1fcf54df68", ⟨c!"577e242a-461f-44a7-922c-d8e1c3d2bf45", c!"dimensionless", c!"d8135201-fa30-4332-a051-7eddb3f8f8ed", c!"niobium content", none, some (c!"6a158827-67f6-4c5e-ba04-3da10718fc21", c!"mass concentration, niobium")⟩),
  (c!"61ec59a5-3816-4e5a-88c7-acf8a8b33d41", ⟨c!"577e242a-461f-44a7-922c-d8e1c3d2bf45", c!"dimensionless", c!"56f09738-8225-4bdc-91d2-39ee6328f0ee", c!"silver content", some (c!"26ec2bdf-c4d7-4ed4-a751-5cfa97d2b26b", c!"concentration, silver"), some (c!"dcdc6c7b-0b72-4174-bc90-f51ed66426d5", c!"mass concentration, silver")⟩),
  (c!"184c9c12-32fb-4252-a484-9952928b8473", ⟨c!"577e242a-461f-44a7-922c-d8e1c3d2bf45", c!"dimensionless", c!"d0a2c761-50ab-4c1d-a37b-525409640a76", c!"indium content", some (c!"dfe0e5ee-314c-4fac-9a75-c96aa63ec3b5", c!"concentration, indium"), some (c!"cbffa34c-c6de-4836-abfe-c6b94b99655a", c!"mass concentration, indium")⟩),
  (c!"476dbccb-c1e5-4cdb-aa14-f4ef627c45ec", ⟨c!"577e242a-461f-44a7-922c-d8e1c3d2bf45", c!"dimensionless", c!"1f3c2d02-f345-4df9-ba6a-88cdeaa67923", c!"fluorine content", none, some (c!"763a698f-54d7-4e2a-84a7-9cc8c0271b6a", c!"mass concentration, fluorine")⟩)]

/-- A part of `ilcdToEcsFp` below. -/
def ilcdToEcsFp3 : List (Str × Ecs) := [
  (c!"1e6e8252-dae9-4b4a-866c-c6c3a5e810a1", ⟨c!"577e242a-461f-44a7-922c-d8e1c3d2bf45", c!"dimensionless", c!"fdafa860-c059-437e-838d-9d151b2067b3", c!"thulium content", none, some (c!"9210d4a4-402c-475a-b354-94a8263632eb", c!"mass concentration, thulium")⟩),
  (c!"d6b6a36c-58b3-48c7-b723-392a6df4754f", ⟨c!"577e242a-461f-44a7-922c-d8e1c3d2bf45", c!"dimensionless", c!"e9688cbc-7400-457a-a936-5ab123ea326c", c!"aluminium content", none, some (c!"77154d2e-4b05-48f2-a89a-789acd170497", c!"mass concentration, aluminium")⟩),
  (c!"24a07e87-aa12-4f9c-8c40-580e9bf7a2f2", ⟨c!"577e242a-461f-44a7-922c-d8e1c3d2bf45", c!"dimensionless", c!"da9aed81-4e0a-4a15-9d5e-27020d826a01", c!"zirconium content", none, some (c!"2dd01d14-3b27-4a66-9308-2ab96e6bcbd0", c!"mass concentration, zirconium")⟩),
  (c!"7ec8d70e-4ffc-4024-86b7-6141cc0a2bf5", ⟨c!"577e242a-461f-44a7-922c-d8e1c3d2bf45", c!"dimensionless", c!"a9358458-9724-4f03-b622-106eda248916", c!"water content", none, none⟩),
  (c!"827934c0-561e-402c-82f2-f04765d180e5", ⟨c!"577e242a-461f-44a7-922c-d8e1c3d2bf45", c!"dimensionless", c!"e66d61f6-8287-4cf1-bb0c-f978ee5e34b3", c!"bismuth content", none, some (c!"26e0e131-cb29-4602-9cce-ecaaf1ffd8d4", c!"mass concentration, bismuth")⟩),
  (c!"83040211-0076-4862-b172-79ce62b71187", ⟨c!"577e242a-461f-44a7-922c-d8e1c3d2bf45", c!"dimensionless", c!"bf4d71d9-4301-4939-8a9d-36d8811b7db0", c!"beryllium content", none, some (c!"d21c7c5c-b2c2-43ae-8575-c377cc0b0495", c!"mass concentration, beryllium")⟩),
  (c!"78b712c9-7f07-467f-b085-efee6067871b", ⟨c!"577e242a-461f-44a7-922c-d8e1c3d2bf45", c!"dimensionless", c!"bbf35356-1757-4287-a72c-ae2bb1753731", c!"osmium content", none, some (c!"1a3f7490-7944-4d5a-ae87-4133cd0f6eec", c!"mass concentration, osmium")⟩),
  (c!"85aa9476-64fb-4c86-bc01-0c656b479cb8", ⟨c!"577e242a-461f-44a7-922c-d8e1c3d2bf45", c!"dimensionless", c!"db0b4bbf-fd26-4ba2-b9de-0fd47476304f", c!"lithium content", none, some (c!"c0dd146d-4b11-4b59-bd42-01ab280d6342", c!"mass concentration, lithium")⟩),
  (c!"11f31f00-f6fa-4ef0-a9e3-5bd37199dd20", ⟨c!"577e242a-461f-44a7-922c-d8e1c3d2bf45", c!"dimensionless", c!"d8551abf-da96-4429-846b-0973136b7d48", c!"tin content", none, some (c!"ff888459-10c3-4700-afce-3a024aaf89cf", c!"mass concentration, tin")⟩),
  (c!"25c2946d-2b1f-4245-b2aa-80c037912665", ⟨c!"577e242a-461f-44a7-922c-d8e1c3d2bf45", c!"dimensionless", c!"b181bebd-539c-49bc-810e-9a443060afbc", c!"thorium content", none, some (c!"b41681b0-87c1-4333-8eae-045ec68fe0c2", c!"mass concentration, thorium")⟩),
  (c!"f18a0b1c-59ec-4c76-ae20-bc6c522547b3", ⟨c!"577e242a-461f-44a7-922c-d8e1c3d2bf45", c!"dimensionless", c!"8aaa7771-015a-4c28-8291-afa3342dbfbe", c!"tellurium content", none, some (c!"3a0030f4-0585-487f-84fb-c6f3fa283ade", c!"mass concentration, tellurium")⟩),
  (c!"f33b22c4-e0e7-4fa6-ae2b-246ecb0a16eb", ⟨c!"577e242a-461f-44a7-922c-d8e1c3d2bf45", c!"dimensionless", c!"f767b36f-62bf-4458-b694-ecbefd2ab970", c!"nickel content", some (c!"70da437b-65cd-498b-a980-7a6b8bc2f525", c!"concentration, nickel"), some (c!"8b574e85-ff07-46bf-a753-f1271299dcf7", c!"mass concentration, nickel")⟩),
  (c!"77f40806-2c54-4050-97d3-d1b61eb4b0c9", ⟨c!"577e242a-461f-44a7-922c-d8e1c3d2bf45", c!"dimensionless", c!"b86d456d-a1dc-4468-a20e-b6a3f4701e32", c!"boron content", none, some (c!"c0447419-7139-44fe-a855-ea71e2b78585", c!"mass concentration, boron")⟩),
  (c!"bd9b36ca-8240-464a-bba0-01c5210a5b66", ⟨c!"577e242a-461f-44a7-922c-d8e1c3d2bf45", c!"dimensionless", c!"8aedc313-f49b-42cd-8d54-fc877ec03017", c!"magnesium content", some (c!"fcc233d5-ea53-4b90-9e2c-5624032a4b95", c!"concentration, magnesium"), some (c!"d26c0a60-86aa-41c8-80ee-3acabc4a5095", c!"mass concentration, magnesium")⟩),
  (c!"e1b01126-0456-41b5-a29a-d6bd5095b64b", ⟨c!"577e242a-461f-44a7-922c-d8e1c3d2bf45", c!"dimensionless", c!"d3c0b420-1906-478c-8812-acfe6bf40c2e", c!"sodium content", none, some (c!"7b656e1b-bc07-41cd-bad4-a5b51b6287da", c!"mass concentration, sodium")⟩),
  (c!"0ac18236-1ef4-4d67-95c0-4aebfec7f470", ⟨c!"577e242a-461f-44a7-922c-d8e1c3d2bf45", c!"dimensionless", c!"ea0dd556-455f-4524-b594-785505f1c0af", c!"cerium content", none, some (c!"cc72d858-3a21-481e-8013-55a53976ffc2", c!"mass concentration, cerium")⟩),
  (c!"e57088b8-0313-45c4-b791-6fdfbb59a142", ⟨c!"577e242a-461f-44a7-922c-d8e1c3d2bf45", c!"dimensionless", c!"82728b89-48ab-4da6-9bad-faeb8ce02d1a", c!"samarium content", none, some (c!"d271dd60-df24-4dbe-b447-7f059810a0f3", c!"mass concentration, samarium")⟩),
  (c!"d55035e1-5a9a-44c5-88ce-d20086ab7148", ⟨c!"577e242a-461f-44a7-922c-d8e1c3d2bf45", c!"dimensionless", c!"a91695f7-22e8-4b39-bd05-56aacab09a87", c!"neodymium content", none, some (c!"5ec6019b-0773-4119-9d96-ed9355eaad80", c!"mass concentration, neodymium")⟩),
  (c!"7cc6f031-f747-49e0-9600-ce2a2fe5657e", ⟨c!"577e242a-461f-44a7-922c-d8e1c3d2bf45", c!"dimensionless", c!"dba83ee6-9127-4c81-86c9-15e29987dcdf", c!"vanadium content", none, some (c!"0b686a86-c506-4ad3-81fd-c3f39f05247d", c!"mass concentration, vanadium")⟩),
  (c!"83c2eede-677e-43ec-98c8-1d801c7f1774", ⟨c!"577e242a-461f-44a7-922c-d8e1c3d2bf45", c!"dimensionless", c!"59d14f7c-d6ea-4770-af4a-aa3dd6538b98", c!"xenon content", none, some (c!"28841901-be10-4b4c-b077-228b4de6e7b1", c!"mass concentration, xenon")⟩)]

/-- A part of `ilcdToEcsFp` below. -/
def ilcdToEcsFp4 : List (Str × Ecs) := [
  (c!"33cf4d9a-bcbf-4fe4-926b-38f2c3e36278", ⟨c!"577e242a-461f-44a7-922c-d8e1c3d2bf45", c!"dimensionless", c!"43e30a6f-82ee-4f81-b799-e835163c8dcd", c!"tantalum content", none, some (c!"6c113912-2ae5-4dea-99ea-1f0ebfe39c31", c!"mass concentration, tantalum")⟩),
  (c!"b1dd578a-f16a-4eaa-ae08-442aa2a1a2de", ⟨c!"577e242a-461f-44a7-922c-d8e1c3d2bf45", c!"dimensionless", c!"22ca28a0-51e6-4f82-9ae7-b6c22a59abb9", c!"helium content", none, some (c!"2584546f-187b-4a1d-b246-0af9d354b46b", c!"mass concentration, helium")⟩),
  (c!"1d85ab50-ed1e-4421-b3b8-c5197d858a0d", ⟨c!"577e242a-461f-44a7-922c-d8e1c3d2bf45", c!"dimensionless", c!"cd5814c6-01ff-4fe8-b4bc-225084393eb2", c!"argon content", none, some (c!"da1ed753-c185-4631-9cec-45d09fcec8f4", c!"mass concentration, argon")⟩),
  (c!"a0f29f45-108a-4aef-8a66-aef07ed34913", ⟨c!"577e242a-461f-44a7-922c-d8e1c3d2bf45", c!"dimensionless", c!"d8364dfc-5753-4585-bf50-4d42b126f72d", c!"iron content", some (c!"effa47e4-3d54-4e54-8b92-223b790f544a", c!"concentration, iron"), some (c!"ebf21bca-b7cf-45d0-9d82-bfb80519a970", c!"mass concentration, iron")⟩),
  (c!"e02ff80b-c3f1-4d9d-b33a-f8c3001c70b8", ⟨c!"577e242a-461f-44a7-922c-d8e1c3d2bf45", c!"dimensionless", c!"92dbd49f-8cf0-4510-b9c0-6b90443b328e", c!"rhodium content", none, some (c!"d8d0d9e1-d98a-4adb-ad4d-de0bb2a1deb3", c!"mass concentration, rhodium")⟩),
  (c!"e8b9419c-c36e-445f-a3a9-ace79156ac30", ⟨c!"577e242a-461f-44a7-922c-d8e1c3d2bf45", c!"dimensionless", c!"e092deec-37ab-4f20-ad74-1460544a9911", c!"erbium content", none, some (c!"630eb01c-d5ad-45b2-896f-9228a893e6d8", c!"mass concentration, erbium")⟩),
  (c!"7c367337-54f2-4fe9-8ee3-3f42681b0792", ⟨c!"577e242a-461f-44a7-922c-d8e1c3d2bf45", c!"dimensionless", c!"33f96fe7-39da-47ca-837f-f2c311681d1b", c!"zinc content", some (c!"253644d1-9ec6-4373-bda4-afbdd248d5b1", c!"concentration, zinc"), some (c!"6cc518c8-4769-40df-b2cf-03f9fe00b759", c!"mass concentration, zinc")⟩),
  (c!"aaa95528-e05d-4eb4-85ff-a5445b580dcc", ⟨c!"577e242a-461f-44a7-922c-d8e1c3d2bf45", c!"dimensionless", c!"dbf41b1b-c7b8-4d5e-b39c-f858eb868df5", c!"oxygen content", none, some (c!"decbd998-dc69-4964-9f82-8b9d9ca93e91", c!"mass concentration, oxygen")⟩),
  (c!"b8ef5a2b-ed75-4497-a061-1ecbbd79a380", ⟨c!"577e242a-461f-44a7-922c-d8e1c3d2bf45", c!"dimensionless", c!"6b093a42-84fe-41a1-8488-0fb444a5cf9d", c!"uranium content", none, some (c!"a4d1b0a4-a4ef-429e-9fab-6dd6ea142c37", c!"mass concentration, uranium")⟩),
  (c!"2651cd57-1c24-4b8e-856b-ddb63a3b267e", ⟨c!"577e242a-461f-44a7-922c-d8e1c3d2bf45", c!"dimensionless", c!"2a256b0b-6003-4669-a3c1-1d3eba2de45e", c!"mercury content", some (c!"adafb091-8daa-4bc9-b302-98aa221ff337", c!"concentration, mercury"), some (c!"a102e6f8-ebc7-450b-a39b-794be96558b7", c!"mass concentration, mercury")⟩),
  (c!"b7be6dba-97f0-42f6-b173-e2c6b042fbe7", ⟨c!"577e242a-461f-44a7-922c-d8e1c3d2bf45", c!"dimensionless", c!"f6c7ebbb-902a-412f-a55b-0743aea00238", c!"sulfur content", some (c!"2d99e421-b9bd-4e09-98e4-f09478190a9b", c!"concentration, sulfur"), some (c!"7f3410da-b91e-40d8-9545-ab269ff66900", c!"mass concentration, sulfur")⟩),
  (c!"d4f76a48-d1c9-4c49-a46e-b61feb974ac4", ⟨c!"577e242a-461f-44a7-922c-d8e1c3d2bf45", c!"dimensionless", c!"6b90d16b-f20b-4b53-abc2-763f9455dc05", c!"bromine content", none, some (c!"e4504511-88b5-4b01-a537-e049f056668c", c!"mass concentration, bromine")⟩),
  (c!"825ef2f3-f706-4c47-8f8d-ee9ddbab3b43", ⟨c!"577e242a-461f-44a7-922c-d8e1c3d2bf45", c!"dimensionless", c!"84916b80-bf93-4e20-9b7c-593aa9518d09", c!"tungsten content", none, some (c!"058d6d50-172b-4a8a-97da-0cee759eca7d", c!"mass concentration, tungsten")⟩),
  (c!"fa94ba11-2720-441d-b432-a2774f3ab1ad", ⟨c!"577e242a-461f-44a7-922c-d8e1c3d2bf45", c!"dimensionless", c!"ee301bc4-052a-40c2-a5d7-76fa6e429aa5", c!"gold content", none, some (c!"3e1978a6-47f8-4e31-8a83-79053a0e715e", c!"mass concentration, gold")⟩),
  (c!"6827435e-8ad9-44c1-b0b4-b26f321957b1", ⟨c!"577e242a-461f-44a7-922c-d8e1c3d2bf45", c!"dimensionless", c!"ca949a93-0642-4d1d-83bf-52faf10f2329", c!"potassium content", some (c!"e38c9209-6934-4445-b180-675bcbd5ad7a", c!"concentration, potassium"), some (c!"8b49eeb7-9caf-4101-b516-eb0aef30d530", c!"mass concentration, potassium")⟩),
  (c!"b8a29b5f-1e7e-4f15-881f-e802e42551eb", ⟨c!"577e242a-461f-44a7-922c-d8e1c3d2bf45", c!"dimensionless", c!"608190bf-8f74-4f8e-8544-f25377accf4d", c!"thallium content", none, some (c!"79baac3d-9e62-45ef-8f41-440dea32f11f", c!"mass concentration, thallium")⟩),
  (c!"02f11c31-4bb8-41de-81fb-fb479f361eb9", ⟨c!"577e242a-461f-44a7-922c-d8e1c3d2bf45", c!"dimensionless", c!"b3026066-b632-4c47-a27e-c13f4a3489fb", c!"iodine content", none, some (c!"e9164ff3-fd2d-4050-895d-0e0a42317be2", c!"mass concentration, iodine")⟩),
  (c!"282882cf-a5e5-4170-82dd-8e84da2724d2", ⟨c!"577e242a-461f-44a7-922c-d8e1c3d2bf45", c!"dimensionless", c!"e9fa11a1-1011-421d-aa34-0544d767a632", c!"titanium content", none, some (c!"abc78955-bd5f-4b1a-9607-0448dd75ebf2", c!"mass concentration, titanium")⟩),
  (c!"cefa9508-86b9-4fad-824e-bbf9d6fdd6f9", ⟨c!"577e242a-461f-44a7-922c-d8e1c3d2bf45", c!"dimensionless", c!"30f0aa15-2d50-4f09-af94-683b6dd68adc", c!"arsenic content", none, some (c!"b321f120-4db7-4e7c-a196-82a231023052", c!"mass concentration, arsenic")⟩),
  (c!"ab654e01-766b-411b-8902-cd6a9c40e55e", ⟨c!"577e242a-461f-44a7-922c-d8e1c3d2bf45", c!"dimensionless", c!"999af43a-1a83-4231-ba3c-600b1941b3a0", c!"palladium content", none, some (c!"98f985da-d0b2-4325-af0c-9e421a2ba950", c!"mass concentration, palladium")⟩)]

/-- A part of `ilcdToEcsFp` below. -/
def ilcdToEcsFp5 : List (Str × Ecs) := [
  (c!"0ab79a5f-7fd7-4d5d-be55-559292c958d3", ⟨c!"577e242a-461f-44a7-922c-d8e1c3d2bf45", c!"dimensionless", c!"0132d97c-5f19-4397-9197-59ab801b10cf", c!"copper content", some (c!"9a08745d-e89e-477c-81a9-2ea81a44547c", c!"concentration, copper"), some (c!"e7451d8a-77af-44e0-86cf-ccd17ac84509", c!"mass concentration, copper")⟩),
  (c!"92f2d417-544a-4fd1-bde7-25967ef93586", ⟨c!"577e242a-461f-44a7-922c-d8e1c3d2bf45", c!"dimensionless", c!"83f67a9e-bf78-4e0d-b1f0-5051a1fda9fe", c!"molybdenum content", none, some (c!"aa897226-0a91-40e5-aa05-4bae3b9e4213", c!"mass concentration, molybdenum")⟩),
  (c!"037f9009-8b06-470d-a190-21448f7921c7", ⟨c!"577e242a-461f-44a7-922c-d8e1c3d2bf45", c!"dimensionless", c!"e5507d89-78ad-4746-900c-b9afa5a62ea6", c!"lead content", some (c!"69394b67-d859-4887-a7a2-64dec0ecdbd8", c!"concentration, lead"), some (c!"71bc04b9-abfe-4f30-ab8f-ba654c7ad296", c!"mass concentration, lead")⟩),
  (c!"935e0cbe-3369-4537-8019-4157cf929304", ⟨c!"577e242a-461f-44a7-922c-d8e1c3d2bf45", c!"dimensionless", c!"ff25f3c3-5f43-4ac0-bb13-d8ecc6fc7b75", c!"terbium content", none, some (c!"291c5be3-dd62-4e12-a0bd-48c3e694169a", c!"mass concentration, terbium")⟩),
  (c!"5a2556bf-a9ec-4720-9253-d40f1de3c2b8", ⟨c!"577e242a-461f-44a7-922c-d8e1c3d2bf45", c!"dimensionless", c!"2bc683e4-3780-4f00-8c1d-fd53e05cfde7", c!"manganese content", none, some (c!"8d27623b-147c-44e8-93cc-2183eac22991", c!"mass concentration, manganese")⟩),
  (c!"0b12d18f-0c7c-44da-8c52-dc3278f917c7", ⟨c!"577e242a-461f-44a7-922c-d8e1c3d2bf45", c!"dimensionless", c!"65387d28-9b09-44d2-9908-663c18b740a3", c!"ytterbium content", none, some (c!"71ff1af9-6834-46e8-b392-e73cbe898dae", c!"mass concentration, ytterbium")⟩),
  (c!"e4225227-7855-41ce-ba57-a5314fdcdcf1", ⟨c!"577e242a-461f-44a7-922c-d8e1c3d2bf45", c!"dimensionless", c!"f576f1a0-d669-4063-9309-82c4af778bb4", c!"gadolinium content", none, some (c!"ed62dbf5-82e7-4432-ac6a-9be3172c41fd", c!"mass concentration, gadolinium")⟩),
  (c!"607a33e0-28ed-42f8-ac8c-66f0c9700e56", ⟨c!"577e242a-461f-44a7-922c-d8e1c3d2bf45", c!"dimensionless", c!"dd7e15dc-c438-43f7-9c0d-d0a627163cf1", c!"silicon content", none, some (c!"67065577-4705-4ece-a892-6dd1d7ecd1e5", c!"mass concentration, silicon")⟩),
  (c!"98eec5a0-44db-411a-a502-95139090bc61", ⟨c!"577e242a-461f-44a7-922c-d8e1c3d2bf45", c!"dimensionless", c!"0650a63d-be1c-49b6-94c5-d0dc2acc35d6", c!"iridium content", none, some (c!"e629f248-28bc-40c8-a7e8-f1c216e7eb1d", c!"mass concentration, iridium")⟩)]

/-- `ilcd_to_ecs2_fp`, units.py:422-706: from a flow property to a property of EcoSpold2. -/
def ilcdToEcsFp : List (Str × Ecs) :=
  ilcdToEcsFp1 ++ ilcdToEcsFp2 ++ ilcdToEcsFp3 ++ ilcdToEcsFp4 ++ ilcdToEcsFp5

/-- `ilcd_unit_to_fp`, units.py:709-727: from a unit of the table of elementary flows to the flow property and the unit group. -/
def ilcdUnitToFp : List (Str × (Str × Str × Str)) := [
  (c!"EUR", (c!"67b63204-ef91-44b2-a927-2f4ead1fae17", c!"03cc996d-7177-4738-aa32-1572a5172ccc", c!"Units of currency")),
  (c!"mol", (c!"341fd786-b2ad-4552-a762-5eafcab45dee", c!"f170abd3-f010-45f4-8e7c-9871a5c0421b", c!"Units of mole")),
  (c!"m*a", (c!"e07b4169-bd86-4337-8fa6-1f76916475bf", c!"b4cac580-5ce8-11df-a08a-0800200c9a66", c!"Units of length*time")),
  (c!"d", (c!"c0447923-0e60-4b3c-97c2-a86dddd9eea5", c!"af638906-3ec7-4314-8de7-f76039f2dd01", c!"Units of time")),
  (c!"Items*km", (c!"1cc347a0-3bd1-46db-a308-2707c68d2351", c!"5454b231-270e-45e6-89b2-7f4f3e482245", c!"Units of items*length")),
  (c!"m", (c!"838aaa23-0117-11db-92e3-0800200c9a66", c!"838aaa22-0117-11db-92e3-0800200c9a66", c!"Units of length")),
  (c!"t*km", (c!"838aaa20-0117-11db-92e3-0800200c9a66", c!"838aaa21-0117-11db-92e3-0800200c9a66", c!"Units of mass*length")),
  (c!"kg", (c!"93a60a56-a3c8-11da-a746-0800200b9a66", c!"93a60a57-a4c8-11da-a746-0800200c9a66", c!"Units of mass")),
  (c!"m3*a", (c!"441238a3-ba09-46ec-b35b-c30cfba746d1", c!"93a60a57-a3c8-23da-a746-0800200c9a66", c!"Units of volume*time")),
  (c!"m2*a", (c!"93a60a56-a3c8-21da-a746-0800200c9a66", c!"93a60a57-a3c8-20da-a746-0800200c9a66", c!"Units of area*time")),
  (c!"m2", (c!"93a60a56-a3c8-19da-a746-0800200c9a66", c!"93a60a57-a3c8-18da-a746-0800200c9a66", c!"Units of area")),
  (c!"kbq", (c!"93a60a56-a3c8-17da-a746-0800200c9a66", c!"93a60a57-a3c8-16da-a746-0800200c9a66", c!"Units of radioactivity")),
  (c!"m3", (c!"93a60a56-a3c8-22da-a746-0800200c9a66", c!"93a60a57-a3c8-12da-a746-0800200c9a66", c!"Units of volume")),
  (c!"mj", (c!"93a60a56-a3c8-11da-a746-0800200c9a66", c!"93a60a57-a3c8-11da-a746-0800200c9a66", c!"Units of energy")),
  (c!"kg*a", (c!"b3f0f892-c5a3-4c66-a432-c09e3d1e9bd6", c!"59f191d6-5dd3-4553-af88-1a32accfe308", c!"Units of mass*time")),
  (c!"Item(s)", (c!"01846770-4cfe-4a25-8ad9-919d8d378345", c!"5beb6eed-33a9-47b8-9ede-1dfe8f679159", c!"Units of items"))]

/-- `olcailcd_unit_to_fp`, units.py:730-748: from a unit of the table of elementary flows to the flow property and the unit group. -/
def olcaUnitToFp : List (Str × (Str × Str × Str)) := [
  (c!"EUR", (c!"fdfecf14-ff8a-4e17-b2b2-f938c4b5cc27", c!"03cc996d-7177-4738-aa32-1572a5172ccc", c!"Units of currency")),
  (c!"m*a", (c!"e07b4169-bd86-4337-8fa6-1f76916475bf", c!"b4cac580-5ce8-11df-a08a-0800200c9a66", c!"Units of length*time")),
  (c!"d", (c!"c0447923-0e60-4b3c-97c2-a86dddd9eea5", c!"af638906-3ec7-4314-8de7-f76039f2dd01", c!"Units of time")),
  (c!"Items*km", (c!"0ddc622a-bc4a-4cf8-a551-9e112864b77f", c!"5454b231-270e-45e6-89b2-7f4f3e482245", c!"Units of items*length")),
  (c!"m", (c!"838aaa23-0117-11db-92e3-0800200c9a66", c!"838aaa22-0117-11db-92e3-0800200c9a66", c!"Units of length")),
  (c!"t*km", (c!"838aaa20-0117-11db-92e3-0800200c9a66", c!"838aaa21-0117-11db-92e3-0800200c9a66", c!"Units of mass*length")),
  (c!"kg", (c!"93a60a56-a3c8-11da-a746-0800200b9a66", c!"93a60a57-a4c8-11da-a746-0800200c9a66", c!"Units of mass")),
  (c!"m3*a", (c!"441238a3-ba09-46ec-b35b-c30cfba746d1", c!"93a60a57-a3c8-23da-a746-0800200c9a66", c!"Units of volume*time")),
  (c!"m2*a", (c!"93a60a56-a3c8-21da-a746-0800200c9a66", c!"93a60a57-a3c8-20da-a746-0800200c9a66", c!"Units of area*time")),
  (c!"m2", (c!"93a60a56-a3c8-19da-a746-0800200c9a66", c!"93a60a57-a3c8-18da-a746-0800200c9a66", c!"Units of area")),
  (c!"kbq", (c!"93a60a56-a3c8-17da-a746-0800200c9a66", c!"93a60a57-a3c8-16da-a746-0800200c9a66", c!"Units of radioactivity")),
  (c!"m3", (c!"93a60a56-a3c8-22da-a746-0800200c9a66", c!"93a60a57-a3c8-12da-a746-0800200c9a66", c!"Units of volume")),
  (c!"mj", (c!"f6811440-ee37-11de-8a39-0800200c9a66", c!"93a60a57-a3c8-11da-a746-0800200c9a66", c!"Units of energy")),
  (c!"kg*a", (c!"4e10f566-0358-489a-8e3a-d687b66c50e6", c!"59f191d6-5dd3-4553-af88-1a32accfe308", c!"Units of mass*time")),
  (c!"Item(s)", (c!"01846770-4cfe-4a25-8ad9-919d8d378345", c!"5beb6eed-33a9-47b8-9ede-1dfe8f679159", c!"Units of items"))]

end Verif.Units
