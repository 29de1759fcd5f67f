[{"id": "R1", "definition": "batch", "claim": "batch", "expect": ["C77"], "edits": [{"file": "Verif/Model/Pdus1.lean", "within": "CollisionPdu.init", "old": "issuingEntityID.getD", "new": "collidingEntityID.getD", "count": 1}, {"file": "Verif/Model/Pdus1.lean", "within": "EntityStateUpdatePdu", "old": "pduType := 67", "new": "pduType := 68", "count": 1}, {"file": "Verif/Model/Pdus1.lean", "within": "LogisticsFamilyPdu", "old": "protocolFamily := 3", "new": "protocolFamily := 4", "count": 1}, {"file": "Verif/Model/Pdus5.lean", "within": "IsPartOfPdu.parse", "old": "Relationship.parse self.relationship", "new": "Relationship.parse {}", "count": 1}, {"file": "Verif/Model/Pdus3.lean", "within": "DesignatorPdu.init", "old": "designatorPower := designatorPower", "new": "designatorPower := 0", "count": 1}, {"file": "Verif/Model/Records1.lean", "within": "EntityType.init", "old": "(extra : Int := 0)", "new": "(extra : Int := 1)", "count": 1}]}]